import Verif.Model.TxHash
import Verif.Props.Hash
import Verif.Props.Build
import Verif.Spec.SigHash

/-
Feeding a hash object.
-/

namespace UB
open Spec

/-- The double hash object has received exactly `m`. -/
def Hashed (h : HashObj) (m : Bytes) : Prop :=
  ∃ pieces : List Bytes, h = pieces.foldl HashObj.write newDoubleSha ∧ pieces.flatten = m

theorem fed_new : Hashed newDoubleSha [] := ⟨[], rfl, rfl⟩

theorem fed_write {h : HashObj} {m : Bytes} (hf : Hashed h m) (b : Bytes) : Hashed (h.write b) (m ++ b) := by
  obtain ⟨p, h1, h2⟩ := hf
  exact ⟨p ++ [b], by rw [List.foldl_append, ← h1]; rfl, by simp [h2]⟩

theorem fed_bytes (b : Bytes) : ∀ {h : HashObj} {m : Bytes}, Hashed h m →
    Hashed (b.foldl HashObj.writeByte h) (m ++ b) := by
  induction b with
  | nil => intro h m hf; simpa using hf
  | cons x b ih =>
    intro h m hf
    have := ih (fed_write hf [x])
    rw [List.append_assoc] at this
    exact this

theorem fed_fin {h : HashObj} {m : Bytes} (hf : Hashed h m) (hl : m.length < 2 ^ 61) : h.fin = hash256 m := by
  obtain ⟨p, h1, h2⟩ := hf
  rw [h1, C43_doubleSha_pieces p (by rw [h2]; exact hl), h2]

theorem window_all (b : Bytes) : window none 0 b = b := rfl

theorem fed_feed {h : HashObj} {m : Bytes} (hf : Hashed h m) (f : Option Nat → Nat → C Bytes) (b : Bytes)
    (hb : f none 0 = .ok b) : ∃ h', h.feed f = .ok h' ∧ Hashed h' (m ++ b) := by
  refine ⟨b.foldl HashObj.writeByte h, ?_, fed_bytes b hf⟩
  simp [HashObj.feed, hb]

theorem fed_feedAll {α β : Type} {R : α → β → Prop} (f : α → Option Nat → Nat → C Bytes) (ser : β → Bytes) :
    ∀ {xs : List α} {ys : List β}, List.Forall₂ R xs ys →
    (∀ x y, R x y → y ∈ ys → f x none 0 = .ok (ser y)) → ∀ {h : HashObj} {m : Bytes}, Hashed h m →
    ∃ h', h.feedAll (xs.map f) = .ok h' ∧ Hashed h' (m ++ ys.flatMap ser)
  | [], _, .nil, _, h, m, hf => ⟨h, rfl, by simpa using hf⟩
  | x :: xs, y :: ys, .cons hxy hr, H, h, m, hf => by
    obtain ⟨h1, e1, f1⟩ := fed_feed hf (f x) (ser y) (H x y hxy (by simp))
    obtain ⟨h2, e2, f2⟩ := fed_feedAll f ser hr (fun a b hab hb => H a b hab (by simp [hb])) f1
    refine ⟨h2, ?_, ?_⟩
    · simp only [List.map_cons, HashObj.feedAll, e1, C.bind_ok, e2]
    · rw [List.flatMap_cons, ← List.append_assoc]; exact f2

theorem fed_int {h : HashObj} {m : Bytes} (hf : Hashed h m) (n : UInt64) (k : Nat) (hk : k ≤ 8) :
    ∃ h', h.writeInt n k = .ok h' ∧ Hashed h' (m ++ leBytes k n.toNat) := by
  refine ⟨h.write (leBytes k n.toNat), ?_, fed_write hf _⟩
  simp [HashObj.writeInt, intToLittleEndian_eq n k hk]

theorem fed_count {h : HashObj} {m : Bytes} (hf : Hashed h m) (n : Nat) (hn : n < 2 ^ 64) :
    ∃ h', h.writeCount n = .ok h' ∧ Hashed h' (m ++ compactSize n) := by
  refine ⟨h.write (compactSize n), ?_, fed_write hf _⟩
  have := compactSize_length n
  simp [HashObj.writeCount, writeVarInt_zeros n 10 hn (by omega)]

theorem u32_64 (x : UInt32) : x.toUInt64.toNat = x.toNat := by simp

/-- Serialized lengths of everything that is hashed. -/
structure Sizes (x : Transaction) : Prop where
  ins : x.ins.length < 2 ^ 64
  outs : x.outs.length < 2 ^ 64
  inScripts : ∀ i ∈ x.ins, i.script.length < 2 ^ 64
  outScripts : ∀ o ∈ x.outs, o.script.length < 2 ^ 64
  nwit : ∀ i ∈ x.ins, i.witness.length < 2 ^ 64
  legacy : (legacyBytes x).length < 2 ^ 61
  segwit : (segwitBytes x).length < 2 ^ 61

theorem Tx.hash_body (t : Tx) (x : Transaction) (h : t.HoldsBody x) (hs : Sizes x) :
    t.hash = .ok (hash256 (legacyBytes x)) := by
  unfold Tx.hash
  obtain ⟨s1, e1, f1⟩ := fed_int fed_new t.version.toUInt64 4 (by omega)
  obtain ⟨s2, e2, f2⟩ := fed_count f1 t.txIns.length (by rw [h.ins.length_eq]; exact hs.ins)
  obtain ⟨s3, e3, f3⟩ := fed_feedAll TxIn.toStream inBytes h.ins
    (fun a i hai hi => by rw [TxIn.toStream_eq a i hai (hs.inScripts i hi), window_all]) f2
  obtain ⟨s4, e4, f4⟩ := fed_count f3 t.txOuts.length (by rw [h.outs.length_eq]; exact hs.outs)
  obtain ⟨s5, e5, f5⟩ := fed_feedAll TxOut.toStream outBytes h.outs
    (fun a i hai hi => by rw [TxOut.toStream_eq a i hai (hs.outScripts i hi), window_all]) f4
  obtain ⟨s6, e6, f6⟩ := fed_int f5 t.locktime.toUInt64 4 (by omega)
  simp only [e1, e2, e3, e4, e5, e6, C.bind_ok, C.pure_eq]
  rw [u32_64, u32_64, h.version, h.locktime, h.ins.length_eq, h.outs.length_eq, List.nil_append] at f6
  exact congrArg C.ok (fed_fin f6 hs.legacy)

theorem Tx.hash_eq (t : Tx) (x : Transaction) (h : t.Holds x) (hs : Sizes x) : t.hash = .ok (hash256 (legacyBytes x)) :=
  Tx.hash_body t x ⟨h.version, h.ins.imp fun _ _ h => h.body, h.outs, h.locktime⟩ hs

theorem Tx.whash_eq (t : Tx) (x : Transaction) (h : t.Holds x) (hs : Sizes x) :
    t.whash = .ok (hash256 (segwitBytes x)) := by
  unfold Tx.whash
  obtain ⟨s1, e1, f1⟩ := fed_int fed_new t.version.toUInt64 4 (by omega)
  obtain ⟨s2, e2, f2⟩ := fed_count (fed_write f1 [0, 1]) t.txIns.length (by rw [h.ins.length_eq]; exact hs.ins)
  obtain ⟨s3, e3, f3⟩ := fed_feedAll TxIn.toStream inBytes h.ins
    (fun a i hai hi => by rw [TxIn.toStream_eq a i hai.body (hs.inScripts i hi), window_all]) f2
  obtain ⟨s4, e4, f4⟩ := fed_count f3 t.txOuts.length (by rw [h.outs.length_eq]; exact hs.outs)
  obtain ⟨s5, e5, f5⟩ := fed_feedAll TxOut.toStream outBytes h.outs
    (fun a i hai hi => by rw [TxOut.toStream_eq a i hai (hs.outScripts i hi), window_all]) f4
  obtain ⟨s6, e6, f6⟩ := fed_feedAll (fun i : TxIn => i.witness.toStream) (fun i => witnessBytes i.witness) h.ins
    (fun a i hai hi => by rw [Witness.toStream_eq a.witness i.witness hai.witness (hs.nwit i hi), window_all]) f5
  obtain ⟨s7, e7, f7⟩ := fed_int f6 t.locktime.toUInt64 4 (by omega)
  simp only [e1, e2, e3, e4, e5, e6, e7, C.bind_ok, C.pure_eq]
  rw [u32_64, u32_64, h.version, h.locktime, h.ins.length_eq, h.outs.length_eq, List.nil_append] at f7
  exact congrArg C.ok (fed_fin f7 hs.segwit)

/-- Inputs with one script replaced and the others emptied. -/
def allIns (ins : List In) (idx : Nat) (code : Bytes) : List In :=
  ins.zipIdx.map fun (i, k) => if k = idx then { i with script := code } else { i with script := [] }

theorem sigIns_holds (script : Script) (idx : UInt8) (code : Bytes) (hsc : script.Holds code) :
    ∀ {xs : List TxIn} {ys : List In}, List.Forall₂ TxIn.Holds xs ys → ∀ k,
    List.Forall₂ TxIn.HoldsBody ((xs.zipIdx k).map (Tx.sigIn script idx))
      ((ys.zipIdx k).map fun (i, k) => if k = idx.toNat then { i with script := code } else { i with script := [] })
  | [], _, .nil, _ => .nil
  | x :: xs, y :: ys, .cons hxy hr, k => by
    rw [List.zipIdx_cons, List.zipIdx_cons, List.map_cons, List.map_cons]
    refine .cons ?_ (sigIns_holds script idx code hsc hr (k + 1))
    have hc := TxIn.copy_holds hxy
    have hl := hc.body.script.len
    unfold Tx.sigIn
    simp only
    split_ifs with hk
    · exact ⟨hc.body.hash, hc.body.hash_len, hc.body.index, Script.assign_holds hl hsc, hc.body.sequence⟩
    · exact ⟨hc.body.hash, hc.body.hash_len, hc.body.index, Script.assign_holds hl ⟨rfl, rfl⟩, hc.body.sequence⟩

theorem Tx.sigHash_eq (t : Tx) (x : Transaction) (h : t.Holds x) (idx : UInt8) (script : Script) (code : Bytes)
    (ty : UInt32) (hsc : script.Holds code) (hi : x.ins.length < 2 ^ 64) (ho : x.outs.length < 2 ^ 64)
    (hcl : code.length < 2 ^ 64) (hos : ∀ o ∈ x.outs, o.script.length < 2 ^ 64)
    (hl : (legacyBytes { x with ins := allIns x.ins idx.toNat code }).length < 2 ^ 60) :
    t.sigHash idx script ty =
      .ok (hash256 (legacyBytes { x with ins := allIns x.ins idx.toNat code } ++ leBytes 4 ty.toNat)) := by
  unfold Tx.sigHash
  obtain ⟨s1, e1, f1⟩ := fed_int fed_new t.version.toUInt64 4 (by omega)
  obtain ⟨s2, e2, f2⟩ := fed_count f1 t.txIns.length (by rw [h.ins.length_eq]; exact hi)
  have hh := sigIns_holds script.copy idx code (Script.copy_holds hsc) h.ins 0
  obtain ⟨s3, e3, f3⟩ := fed_feedAll TxIn.toStream inBytes hh
    (fun a i hai hi => by
      have : i.script.length < 2 ^ 64 := by
        simp only [List.mem_map] at hi
        obtain ⟨⟨j, k⟩, _, hj⟩ := hi
        subst hj
        simp only
        split_ifs
        · exact hcl
        · simp
      rw [TxIn.toStream_eq a i hai this, window_all]) f2
  obtain ⟨s4, e4, f4⟩ := fed_count f3 t.txOuts.length (by rw [h.outs.length_eq]; exact ho)
  obtain ⟨s5, e5, f5⟩ := fed_feedAll TxOut.toStream outBytes h.outs
    (fun a i hai hi => by rw [TxOut.toStream_eq a i hai (hos i hi), window_all]) f4
  obtain ⟨s6, e6, f6⟩ := fed_int f5 t.locktime.toUInt64 4 (by omega)
  obtain ⟨s7, e7, f7⟩ := fed_int f6 ty.toUInt64 4 (by omega)
  simp only [e1, e2, e3, e4, e5, e6, e7, C.bind_ok, C.pure_eq]
  rw [u32_64, u32_64, u32_64, h.version, h.locktime, h.ins.length_eq, h.outs.length_eq, List.nil_append] at f7
  have hlen : (allIns x.ins idx.toNat code).length = x.ins.length := by simp [allIns]
  have := fed_fin f7 (by
    have := hl
    simp only [legacyBytes, hlen] at this
    rw [List.length_append, Spec.length_leBytes]
    unfold allIns at this
    omega)
  rw [this]
  simp only [legacyBytes, hlen]
  rfl

theorem fed_prevouts : ∀ {xs : List TxIn} {ys : List In}, List.Forall₂ TxIn.Holds xs ys →
    ∀ {h : HashObj} {m : Bytes}, Hashed h m →
    ∃ h', Tx.feedPrevouts h xs = .ok h' ∧ Hashed h' (m ++ ys.flatMap outpoint)
  | [], _, .nil, h, m, hf => ⟨h, rfl, by simpa using hf⟩
  | x :: xs, y :: ys, .cons hxy hr, h, m, hf => by
    obtain ⟨h1, e1, f1⟩ := fed_int (fed_write hf x.hash) x.outputIndex.toUInt64 4 (by omega)
    obtain ⟨h2, e2, f2⟩ := fed_prevouts hr f1
    refine ⟨h2, ?_, ?_⟩
    · simp only [Tx.feedPrevouts, e1, C.bind_ok, e2]
    · rw [u32_64, hxy.body.hash, hxy.body.index] at f2
      simpa [outpoint] using f2

theorem fed_sequences : ∀ {xs : List TxIn} {ys : List In}, List.Forall₂ TxIn.Holds xs ys →
    ∀ {h : HashObj} {m : Bytes}, Hashed h m →
    ∃ h', Tx.feedSequences h xs = .ok h' ∧ Hashed h' (m ++ ys.flatMap fun i => leBytes 4 i.sequence)
  | [], _, .nil, h, m, hf => ⟨h, rfl, by simpa using hf⟩
  | x :: xs, y :: ys, .cons hxy hr, h, m, hf => by
    obtain ⟨h1, e1, f1⟩ := fed_int hf x.sequence.toUInt64 4 (by omega)
    obtain ⟨h2, e2, f2⟩ := fed_sequences hr f1
    refine ⟨h2, ?_, ?_⟩
    · simp only [Tx.feedSequences, e1, C.bind_ok, e2]
    · rw [u32_64, hxy.body.sequence] at f2
      simpa using f2

theorem hash256_length (m : Bytes) : (hash256 m).length = 32 := length_sha256 _

theorem Tx.sigHashSegwit_eq (t : Tx) (x : Transaction) (h : t.Holds x) (idx : UInt8) (i : In)
    (hidx : x.ins[idx.toNat]? = some i) (script : Script) (code : Bytes)
    (amount : UInt64) (ty : UInt32) (hsc : script.Holds code) (hcl : code.length < 2 ^ 60)
    (hi : x.ins.length < 2 ^ 50) (hos : ∀ o ∈ x.outs, o.script.length < 2 ^ 64)
    (hl : (outputsBytes x).length < 2 ^ 61) :
    t.sigHashSegwit idx script amount ty =
      .ok (hash256 (leBytes 4 x.version ++ hash256 (prevoutsBytes x) ++ hash256 (sequencesBytes x) ++
        outpoint i ++ varBytes code ++ leBytes 8 amount.toNat ++ leBytes 4 i.sequence ++
        hash256 (outputsBytes x) ++ leBytes 4 x.locktime ++ leBytes 4 ty.toNat)) := by
  have hph : ∀ ys : List In, (∀ i ∈ ys, i.prevHash.length = 32) → (ys.flatMap outpoint).length = 36 * ys.length := by
    intro ys
    induction ys with
    | nil => intro _; rfl
    | cons y ys ih =>
      intro hy
      rw [List.flatMap_cons, List.length_append, ih (fun i hi => hy i (by simp [hi])), outpoint,
        List.length_append, hy y (by simp), Spec.length_leBytes, List.length_cons]
      omega
  have hsq : ∀ ys : List In, (ys.flatMap fun i => leBytes 4 i.sequence).length = 4 * ys.length := by
    intro ys
    induction ys with
    | nil => rfl
    | cons y ys ih => rw [List.flatMap_cons, List.length_append, ih, Spec.length_leBytes, List.length_cons]; omega
  have hall : ∀ i ∈ x.ins, i.prevHash.length = 32 := by
    intro i hi
    obtain ⟨xs, ys, hxy⟩ : ∃ xs ys, List.Forall₂ TxIn.Holds xs ys ∧ ys = x.ins := ⟨_, _, h.ins, rfl⟩
    rw [← hxy.2] at hi
    have hf := hxy.1
    clear hxy
    induction hf with
    | nil => simp at hi
    | cons hab _ ih =>
      rcases List.mem_cons.mp hi with rfl | hi
      · rw [← hab.body.hash]; exact hab.body.hash_len
      · exact ih hi
  obtain ⟨a, ha, hai⟩ : ∃ a, t.txIns[idx.toNat]? = some a ∧ a.Holds i := by
    have hlt : idx.toNat < x.ins.length := by
      by_contra hc
      rw [List.getElem?_eq_none (by omega)] at hidx
      simp at hidx
    have hlt' : idx.toNat < t.txIns.length := by rw [h.ins.length_eq]; exact hlt
    refine ⟨t.txIns[idx.toNat], List.getElem?_eq_getElem hlt', ?_⟩
    have := h.ins.get hlt' hlt
    rw [List.getElem?_eq_getElem hlt, Option.some.injEq] at hidx
    rw [← hidx]
    simpa using this
  unfold Tx.sigHashSegwit Tx.hashPrevouts Tx.hashSequence Tx.hashOutputs
  obtain ⟨p1, ep, fp⟩ := fed_prevouts h.ins fed_new
  obtain ⟨q1, eq1, fq⟩ := fed_sequences h.ins fed_new
  obtain ⟨o1, eo, fo⟩ := fed_feedAll TxOut.toStream outBytes h.outs
    (fun a i hai hi => by rw [TxOut.toStream_eq a i hai (hos i hi), window_all]) fed_new
  have gp := fed_fin fp (by rw [List.nil_append, hph _ hall]; omega)
  have gq := fed_fin fq (by rw [List.nil_append, hsq]; omega)
  have go := fed_fin fo hl
  obtain ⟨s1, e1, f1⟩ := fed_int fed_new t.version.toUInt64 4 (by omega)
  have f2 := fed_write (fed_write (fed_write f1 p1.fin) q1.fin) a.hash
  obtain ⟨s3, e3, f3⟩ := fed_int f2 a.outputIndex.toUInt64 4 (by omega)
  obtain ⟨s4, e4, f4⟩ := fed_feed f3 script.copy.toStream (varBytes code)
    (by rw [Script.toStream_eq _ _ (Script.copy_holds hsc) (by omega), window_all])
  obtain ⟨s5, e5, f5⟩ := fed_int f4 amount 8 (by omega)
  obtain ⟨s6, e6, f6⟩ := fed_int f5 a.sequence.toUInt64 4 (by omega)
  obtain ⟨s7, e7, f7⟩ := fed_int (fed_write f6 o1.fin) t.locktime.toUInt64 4 (by omega)
  obtain ⟨s8, e8, f8⟩ := fed_int f7 ty.toUInt64 4 (by omega)
  simp only [ep, eq1, eo, e1, ha, e3, e4, e5, e6, e7, e8, C.bind_ok, C.pure_eq]
  rw [u32_64, u32_64, u32_64, u32_64, u32_64, h.version, h.locktime, gp, gq, go, hai.body.hash, hai.body.index,
    hai.body.sequence, List.nil_append, List.nil_append, List.nil_append, List.nil_append] at f8
  have hcs := compactSize_length code.length
  have hout : (outpoint i).length = 36 := by
    rw [outpoint, List.length_append, Spec.length_leBytes, hall i (List.mem_of_getElem? hidx)]
  have := fed_fin f8 (by
    have := hall i (List.mem_of_getElem? hidx)
    simp only [List.length_append, Spec.length_leBytes, hash256_length, varBytes, this]
    omega)
  rw [this]
  simp only [outpoint, prevoutsBytes, sequencesBytes, outputsBytes, List.append_assoc]

end UB
