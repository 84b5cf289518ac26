import Verif.Model.HashLife
import Verif.Spec.HashLife
import Verif.Props.Hash

/-
C91: hash objects over their lifetime.
-/

namespace UB
open Spec

/-- The functions of the class of an object. -/
def HashVar.cls : HashVar → HashClass
  | .rmd _ => classRMD160
  | .s256 .plain _ => classSHA256
  | .s256 .hash160 _ => classHash160
  | .s256 .double _ => classDoubleSha
  | .s512 _ => classSHA512

/-- `v` is in the middle of the message `m`; `pad` is the outer padded key it holds. -/
def HashVar.Holds (v : HashVar) (m pad : Bytes) : Prop :=
  match v with
  | .rmd c => Rmd160.Rep c m ∧ m.length < 2 ^ 61
  | .s256 _ h => Sha2Code.Rep sha256P (fun b n => b.toNat = 8 * n) h.ctx m ∧ h.oKeyPad = pad ∧ m.length < 2 ^ 61 ∧ pad.length = 64
  | .s512 h => Sha2Code.Rep sha512P (fun b n => b.1.toNat = 8 * n ∧ b.2 = 0) h.ctx m ∧ h.oKeyPad = pad ∧ m.length < 2 ^ 61 ∧ pad.length = 128

/-- A piece is no longer than the library can take: RMD160 looks at the lower 32 bits of the length only. -/
def HashVar.Takes (v : HashVar) (m d : Bytes) : Prop :=
  match v with
  | .rmd _ => d.length < 2 ^ 32 ∧ m.length + d.length < 2 ^ 61
  | _ => m.length + d.length < 2 ^ 61

theorem HashVar.cls_step (v : HashVar) (op : HashOp) : (v.step op).1.cls = v.cls := by
  cases v with
  | rmd c => cases op <;> rfl
  | s256 e h => cases e <;> cases op <;> rfl
  | s512 h => cases op <;> rfl

theorem HashVar.cls_run (v : HashVar) (ops : List HashOp) : (v.run ops).1.cls = v.cls := by
  induction ops generalizing v with
  | nil => rfl
  | cons op ops ih => rw [run]; dsimp only; rw [ih, cls_step]

theorem HashVar.holds_write {v : HashVar} {m pad d : Bytes} (h : v.Holds m pad) (hd : v.Takes m d) :
    (v.step (.write d)).1.Holds (m ++ d) pad ∧ (v.step (.write d)).2 = none := by
  cases v with
  | rmd c =>
    obtain ⟨h1, h2⟩ := h
    obtain ⟨d1, d2⟩ := hd
    exact ⟨⟨Rmd160.rep_update c m d h1 d1 (by omega), by rw [List.length_append]; exact d2⟩, rfl⟩
  | s256 e c =>
    obtain ⟨h1, h2, h3, h4⟩ := h
    exact ⟨⟨Sha2Code.rep_update sha256Ok sha256Count _ m d h1 hd, h2, by rw [List.length_append]; exact hd, h4⟩, rfl⟩
  | s512 c =>
    obtain ⟨h1, h2, h3, h4⟩ := h
    exact ⟨⟨Sha2Code.rep_update sha512Ok sha512Count _ m d h1 hd, h2, by rw [List.length_append]; exact hd, h4⟩, rfl⟩

theorem HashVar.holds_fin {v : HashVar} {m pad : Bytes} (h : v.Holds m pad) : (v.step .fin).2 = some (v.cls.digest m) := by
  cases v with
  | rmd c => exact congrArg some (Rmd160.final_spec c m h.1 h.2)
  | s256 e c =>
    obtain ⟨h1, -, h3, -⟩ := h
    have hf := Sha2Code.final_spec sha256Ok sha256Count _ m h1 h3
    have hf' : (sha256Code.final c.ctx).2 = Spec.sha256 m := hf
    cases e with
    | plain => exact congrArg some hf'
    | hash160 =>
      show some (rmd160 (sha256Code.final c.ctx).2) = some (Spec.ripemd160 (Spec.sha256 m))
      rw [hf', rmd160_eq _ (by rw [length_sha256]; decide)]
    | double =>
      show some (UB.sha256 (sha256Code.final c.ctx).2) = some (Spec.sha256 (Spec.sha256 m))
      rw [hf', sha256_eq _ (by rw [length_sha256]; decide)]
  | s512 c =>
    obtain ⟨h1, -, h3, -⟩ := h
    exact congrArg some (Sha2Code.final_spec sha512Ok sha512Count _ m h1 h3)

theorem HashVar.holds_finHMAC {v : HashVar} {m pad : Bytes} (h : v.Holds m pad) :
    (v.step .finHMAC).2 = v.cls.inner.map fun f => f.1 (pad ++ f.1 m) := by
  cases v with
  | rmd c => rfl
  | s256 e c =>
    obtain ⟨h1, h2, h3, h4⟩ := h
    have hf : (sha256Code.final c.ctx).2 = Spec.sha256 m := Sha2Code.final_spec sha256Ok sha256Count _ m h1 h3
    have q1 := Sha2Code.rep_update sha256Ok sha256Count _ [] pad (Sha2Code.rep_init sha256Ok sha256Count) (by rw [List.length_nil, h4]; decide)
    rw [List.nil_append] at q1
    have q2 := Sha2Code.rep_update sha256Ok sha256Count _ _ (Spec.sha256 m) q1 (by rw [h4, length_sha256]; decide)
    have q3 : (sha256Code.final _).2 = Spec.sha256 _ :=
      Sha2Code.final_spec sha256Ok sha256Count _ _ q2 (by rw [List.length_append, h4, length_sha256]; decide)
    have : (HashVar.step (.s256 e c) .finHMAC).2 = some (Spec.sha256 (pad ++ Spec.sha256 m)) := by
      show some (sha256Code.hmacFinal c) = _
      unfold Sha2Code.hmacFinal
      dsimp only
      rw [hf, h2, q3]
    rw [this]
    cases e <;> rfl
  | s512 c =>
    obtain ⟨h1, h2, h3, h4⟩ := h
    have hf : (sha512Code.final c.ctx).2 = Spec.sha512 m := Sha2Code.final_spec sha512Ok sha512Count _ m h1 h3
    have q1 := Sha2Code.rep_update sha512Ok sha512Count _ [] pad (Sha2Code.rep_init sha512Ok sha512Count) (by rw [List.length_nil, h4]; decide)
    rw [List.nil_append] at q1
    have q2 := Sha2Code.rep_update sha512Ok sha512Count _ _ (Spec.sha512 m) q1 (by rw [h4, length_sha512]; decide)
    have q3 : (sha512Code.final _).2 = Spec.sha512 _ :=
      Sha2Code.final_spec sha512Ok sha512Count _ _ q2 (by rw [List.length_append, h4, length_sha512]; decide)
    show some (sha512Code.hmacFinal c) = some _
    unfold Sha2Code.hmacFinal
    dsimp only
    rw [hf, h2, q3]

/-- The outer padded key that an object holds. -/
def HashVar.pad : HashVar → Bytes
  | .rmd _ => []
  | .s256 _ h => h.oKeyPad
  | .s512 h => h.oKeyPad

/-- The block is complete: true of every object, as the member has that size. -/
def HashVar.Padded : HashVar → Prop
  | .rmd _ => True
  | .s256 _ h => h.oKeyPad.length = 64
  | .s512 h => h.oKeyPad.length = 128

theorem HashVar.keyBlock256 (key : Bytes) (hk : key.length < 2 ^ 32) : sha256Code.keyBlock (Sha2Code.cut32 key) = Sha2Code.padKey sha256P key := by
  rw [Sha2Code.cut32_eq key hk, Sha2Code.keyBlock_eq sha256Ok sha256Count key (by omega)]

theorem HashVar.keyBlock512 (key : Bytes) (hk : key.length < 2 ^ 32) : sha512Code.keyBlock (Sha2Code.cut32 key) = Sha2Code.padKey sha512P key := by
  rw [Sha2Code.cut32_eq key hk, Sha2Code.keyBlock_eq sha512Ok sha512Count key (by omega)]

theorem HashVar.holds_start {v : HashVar} (hp : v.Padded) : (v.step .start).1.Holds [] v.pad ∧ (v.step .start).2 = none := by
  cases v with
  | rmd c => exact ⟨⟨Rmd160.rep_init, by decide⟩, rfl⟩
  | s256 e c => exact ⟨⟨Sha2Code.rep_init sha256Ok sha256Count, rfl, by decide, hp⟩, rfl⟩
  | s512 c => exact ⟨⟨Sha2Code.rep_init sha512Ok sha512Count, rfl, by decide, hp⟩, rfl⟩

/-- RFC 2104: the key as a block. -/
def macBlock (f : (Bytes → Bytes) × Nat) (key : Bytes) : Bytes :=
  let k := if key.length > f.2 then f.1 key else key
  k ++ zeros (f.2 - k.length)

theorem HashVar.holds_startHMAC {v : HashVar} {f : (Bytes → Bytes) × Nat} (hf : v.cls.inner = some f) (key : Bytes) (hk : key.length < 2 ^ 32) :
    (v.step (.startHMAC key)).1.Holds ((macBlock f key).map (· ^^^ 0x36)) ((macBlock f key).map (· ^^^ 0x5c)) ∧ (v.step (.startHMAC key)).2 = none := by
  cases v with
  | rmd c => cases hf
  | s256 e c =>
    have hf' : f = (Spec.sha256, 64) := by cases e <;> (injection hf with hf; exact hf.symm)
    subst hf'
    have hb : macBlock (Spec.sha256, 64) key = Sha2Code.padKey sha256P key := rfl
    have hl : (Sha2Code.padKey sha256P key).length = 64 := Sha2Code.length_padKey sha256P key
    have r := Sha2Code.rep_update sha256Ok sha256Count _ [] ((Sha2Code.padKey sha256P key).map (· ^^^ 0x36)) (Sha2Code.rep_init sha256Ok sha256Count)
      (by rw [List.length_map, hl]; decide)
    rw [List.nil_append] at r
    have e1 : sha256Code.hmacInit key = { oKeyPad := (Sha2Code.padKey sha256P key).map (· ^^^ 0x5c), ctx := sha256Code.update sha256Code.init ((Sha2Code.padKey sha256P key).map (· ^^^ 0x36)) } := by
      unfold Sha2Code.hmacInit
      dsimp only
      rw [keyBlock256 key hk]
    rw [hb]
    refine ⟨?_, rfl⟩
    show HashVar.Holds (.s256 e (sha256Code.hmacInit key)) _ _
    rw [e1]
    exact ⟨r, rfl, by rw [List.length_map, hl]; decide, by rw [List.length_map, hl]⟩
  | s512 c =>
    have hf' : f = (Spec.sha512, 128) := by injection hf with hf; exact hf.symm
    subst hf'
    have hb : macBlock (Spec.sha512, 128) key = Sha2Code.padKey sha512P key := rfl
    have hl : (Sha2Code.padKey sha512P key).length = 128 := Sha2Code.length_padKey sha512P key
    have r := Sha2Code.rep_update sha512Ok sha512Count _ [] ((Sha2Code.padKey sha512P key).map (· ^^^ 0x36)) (Sha2Code.rep_init sha512Ok sha512Count)
      (by rw [List.length_map, hl]; decide)
    rw [List.nil_append] at r
    have e1 : sha512Code.hmacInit key = { oKeyPad := (Sha2Code.padKey sha512P key).map (· ^^^ 0x5c), ctx := sha512Code.update sha512Code.init ((Sha2Code.padKey sha512P key).map (· ^^^ 0x36)) } := by
      unfold Sha2Code.hmacInit
      dsimp only
      rw [keyBlock512 key hk]
    rw [hb]
    refine ⟨?_, rfl⟩
    show HashVar.Holds (.s512 (sha512Code.hmacInit key)) _ _
    rw [e1]
    exact ⟨r, rfl, by rw [List.length_map, hl]; decide, by rw [List.length_map, hl]⟩

theorem HashVar.padded_step {v : HashVar} (hp : v.Padded) (op : HashOp) (hk : ∀ key, op = .startHMAC key → key.length < 2 ^ 32) : (v.step op).1.Padded := by
  cases v with
  | rmd c => cases op <;> trivial
  | s256 e c =>
    cases op with
    | startHMAC key =>
      show (sha256Code.hmacInit key).oKeyPad.length = 64
      unfold Sha2Code.hmacInit
      dsimp only
      rw [keyBlock256 key (hk key rfl), List.length_map]
      exact Sha2Code.length_padKey sha256P key
    | finHMAC => exact length_zeros 64
    | start => exact hp
    | baseBegin => exact hp
    | write d => exact hp
    | fin => exact hp
  | s512 c =>
    cases op with
    | startHMAC key =>
      show (sha512Code.hmacInit key).oKeyPad.length = 128
      unfold Sha2Code.hmacInit
      dsimp only
      rw [keyBlock512 key (hk key rfl), List.length_map]
      exact Sha2Code.length_padKey sha512P key
    | finHMAC => exact length_zeros 128
    | start => exact hp
    | baseBegin => exact hp
    | write d => exact hp
    | fin => exact hp

/-- Keys shorter than 4 GiB. -/
def KeysFit (ops : List HashOp) : Prop := ∀ key, HashOp.startHMAC key ∈ ops → key.length < 2 ^ 32

theorem HashVar.padded_run {v : HashVar} (hp : v.Padded) (ops : List HashOp) (hk : KeysFit ops) : (v.run ops).1.Padded := by
  induction ops generalizing v with
  | nil => exact hp
  | cons op ops ih =>
    rw [run]
    exact ih (padded_step hp op fun key h => hk key (by rw [h]; simp)) fun key h => hk key (by simp [h])

/-- The pieces of a message that the library can take. -/
def PiecesFit (v : HashVar) (m : Bytes) (pieces : List Bytes) : Prop :=
  m.length + pieces.flatten.length < 2 ^ 61 ∧ (v.cls.inner = none → ∀ p ∈ pieces, p.length < 2 ^ 32)

theorem HashVar.holds_writes {v : HashVar} {m pad : Bytes} (h : v.Holds m pad) (pieces : List Bytes) (hs : PiecesFit v m pieces) :
    (v.run (pieces.map .write)).1.Holds (m ++ pieces.flatten) pad ∧ (v.run (pieces.map .write)).2 = [] := by
  induction pieces generalizing v m with
  | nil => rw [List.map_nil, run, List.flatten_nil, List.append_nil]; exact ⟨h, rfl⟩
  | cons p ps ih =>
    obtain ⟨h1, h2⟩ := hs
    rw [List.flatten_cons, List.length_append] at h1
    have ht : v.Takes m p := by
      cases v with
      | rmd c => exact ⟨h2 rfl p (by simp), by omega⟩
      | s256 e c => show _ < _; omega
      | s512 c => show _ < _; omega
    obtain ⟨g1, g2⟩ := holds_write h ht
    obtain ⟨k1, k2⟩ := ih g1 ⟨by rw [List.length_append]; omega, fun hn q hq => h2 (by rwa [cls_step] at hn) q (by simp [hq])⟩
    rw [List.map_cons, run]
    dsimp only
    rw [g2, k2, List.flatten_cons, ← List.append_assoc]
    exact ⟨k1, rfl⟩

theorem HashVar.run_append (v : HashVar) (a b : List HashOp) :
    v.run (a ++ b) = (((v.run a).1.run b).1, (v.run a).2 ++ ((v.run a).1.run b).2) := by
  induction a generalizing v with
  | nil => rfl
  | cons op a ih => rw [List.cons_append, run, run]; dsimp only; rw [ih, List.append_assoc]

/-! ### The property -/

/-- The objects that a program can have: one of the constructors, then any calls. -/
def HashVar.New (v : HashVar) : Prop :=
  v = newRMD160 ∨ (∃ e junk, junk.length = 64 ∧ v = new256 e junk) ∨ (∃ junk, junk.length = 128 ∧ v = new512 junk) ∨
    ∃ junk tag, junk.length = 64 ∧ v = newTagged junk tag

theorem HashVar.New.padded {v : HashVar} (h : v.New) : v.Padded := by
  rcases h with rfl | ⟨e, junk, hj, rfl⟩ | ⟨junk, hj, rfl⟩ | ⟨junk, tag, hj, rfl⟩
  · trivial
  · exact hj
  · exact hj
  · exact hj

/-- C91: whatever was done with an object before, `begin`, any `write`s and `end` give the digest of the bytes written since `begin`. -/
theorem C91_begin (v : HashVar) (hv : v.New) (before : List HashOp) (hb : KeysFit before) (pieces : List Bytes) (hs : PiecesFit v [] pieces) :
    (v.run (before ++ .start :: pieces.map .write ++ [.fin])).2 = (v.run before).2 ++ [v.cls.digest pieces.flatten] := by
  have hp := HashVar.padded_run hv.padded before hb
  have hc := HashVar.cls_run v before
  obtain ⟨h1, h2⟩ := HashVar.holds_start hp
  obtain ⟨h3, h4⟩ := HashVar.holds_writes h1 pieces ⟨hs.1, fun hn => hs.2 (by rwa [HashVar.cls_step, hc] at hn)⟩
  have h5 := HashVar.holds_fin h3
  rw [HashVar.cls_run, HashVar.cls_step, hc, List.nil_append] at h5
  rw [List.append_assoc, HashVar.run_append]
  dsimp only
  rw [List.cons_append, HashVar.run]
  dsimp only
  rw [h2, HashVar.run_append]
  dsimp only
  rw [h4, HashVar.run]
  dsimp only
  rw [h5]
  rfl

/-- C91: whatever was done with an object before, `beginHMAC`, any `write`s and `endHMAC` give the HMAC of the bytes written since `beginHMAC`: with
SHA-256 for SHA256, Hash160, DoubleSha and TaggedHash, with SHA-512 for SHA512. -/
theorem C91_beginHMAC (v : HashVar) (hv : v.New) (before : List HashOp) (f : (Bytes → Bytes) × Nat) (hf : v.cls.inner = some f)
    (key : Bytes) (hk : key.length < 2 ^ 32) (pieces : List Bytes) (hs : pieces.flatten.length < 2 ^ 60) :
    (v.run (before ++ .startHMAC key :: pieces.map .write ++ [.finHMAC])).2 = (v.run before).2 ++ [Spec.hmac f.1 f.2 key pieces.flatten] := by
  have hc := HashVar.cls_run v before
  have hf' : (v.run before).1.cls.inner = some f := by rw [hc]; exact hf
  obtain ⟨h1, h2⟩ := HashVar.holds_startHMAC hf' key hk
  have hbl : ((macBlock f key).map (· ^^^ 0x36)).length ≤ 128 := by
    rw [List.length_map]
    have h256 : (macBlock (Spec.sha256, 64) key).length = 64 := Sha2Code.length_padKey sha256P key
    have h512 : (macBlock (Spec.sha512, 128) key).length = 128 := Sha2Code.length_padKey sha512P key
    cases v with
    | rmd c => cases hf
    | s256 e c =>
      have : f = (Spec.sha256, 64) := by cases e <;> (injection hf with hf; exact hf.symm)
      rw [this]; omega
    | s512 c =>
      have : f = (Spec.sha512, 128) := by injection hf with hf; exact hf.symm
      rw [this]; omega
  obtain ⟨h3, h4⟩ := HashVar.holds_writes h1 pieces ⟨by omega, fun hn => by rw [HashVar.cls_step, hf'] at hn; cases hn⟩
  have h5 := HashVar.holds_finHMAC h3
  rw [HashVar.cls_run, HashVar.cls_step, hf', Option.map_some] at h5
  rw [List.append_assoc, HashVar.run_append]
  dsimp only
  rw [List.cons_append, HashVar.run]
  dsimp only
  rw [h2, HashVar.run_append]
  dsimp only
  rw [h4, HashVar.run]
  dsimp only
  rw [h5]
  rfl

/-- An object that has made a digest and an HMAC before. -/
example (junk : Bytes) (hj : junk.length = 64) :
    ((HashVar.new256 .double junk).run ([.write [1], .fin, .startHMAC [2], .finHMAC] ++ .start :: [[3], [4, 5]].map .write ++ [.fin])).2 =
      ((HashVar.new256 .double junk).run [.write [1], .fin, .startHMAC [2], .finHMAC]).2 ++ [Spec.hash256 ([[3], [4, 5]] : List Bytes).flatten] :=
  C91_begin (HashVar.new256 .double junk) (.inr (.inl ⟨.double, junk, hj, rfl⟩)) [.write [1], .fin, .startHMAC [2], .finHMAC] (by
    intro key h
    simp only [List.mem_cons, reduceCtorEq, HashOp.startHMAC.injEq, List.not_mem_nil, or_false, false_or] at h
    rw [h]; decide) [[3], [4, 5]] ⟨by decide, fun h => by cases h⟩

example (junk : Bytes) (hj : junk.length = 128) :
    ((HashVar.new512 junk).run ([.write [1]] ++ .startHMAC [2] :: [[3]].map .write ++ [.finHMAC])).2 = [] ++ [Spec.hmacSha512 [2] [3]] :=
  C91_beginHMAC _ (.inr (.inr (.inl ⟨_, hj, rfl⟩))) [.write [1]] _ rfl [2] (by decide) [[3]] (by decide)

theorem HashVar.forget_step (v : HashVar) (op : HashOp) (hm : v.cls.inner ≠ none) : ((v.step op).1.step .finHMAC).1 = (v.step .finHMAC).1 := by
  cases v with
  | rmd c => exact absurd rfl hm
  | s256 e h => cases op <;> rfl
  | s512 h => cases op <;> rfl

theorem HashVar.forget_run (v : HashVar) (ops : List HashOp) (hm : v.cls.inner ≠ none) : ((v.run ops).1.step .finHMAC).1 = (v.step .finHMAC).1 := by
  induction ops generalizing v with
  | nil => rfl
  | cons op ops ih =>
    rw [run]
    dsimp only
    rw [ih _ (by rw [cls_step]; exact hm), forget_step v op hm]

/-- C91: after `endHMAC` nothing of the keys and messages is left in the object: it is the same whatever was done with it before. -/
theorem C91_endHMAC_forgets (v : HashVar) (hm : v.cls.inner ≠ none) (a b : List HashOp) : (v.run (a ++ [.finHMAC])).1 = (v.run (b ++ [.finHMAC])).1 := by
  rw [HashVar.run_append, HashVar.run_append]
  show ((v.run a).1.step .finHMAC).1 = ((v.run b).1.step .finHMAC).1
  rw [HashVar.forget_run v a hm, HashVar.forget_run v b hm]

/-- C91: a new object can be written to without `begin`: the digest is that of all bytes, for a TaggedHash the tagged hash of BIP 340. -/
theorem C91_fresh (e : End256) (junk junk' tag : Bytes) (hj : junk.length = 64) (hj' : junk'.length = 128) (ht : tag.length < 2 ^ 61) (pieces : List Bytes)
    (hs : pieces.flatten.length < 2 ^ 60) (h32 : ∀ p ∈ pieces, p.length < 2 ^ 32) :
    (HashVar.newRMD160.run (pieces.map .write ++ [.fin])).2 = [Spec.ripemd160 pieces.flatten] ∧
    ((HashVar.new256 e junk).run (pieces.map .write ++ [.fin])).2 = [(HashVar.new256 e junk).cls.digest pieces.flatten] ∧
    ((HashVar.new512 junk').run (pieces.map .write ++ [.fin])).2 = [Spec.sha512 pieces.flatten] ∧
    ((HashVar.newTagged junk tag).run (pieces.map .write ++ [.fin])).2 = [Spec.taggedHash tag pieces.flatten] := by
  have all : ∀ {v : HashVar} {m pad : Bytes}, v.Holds m pad → m.length ≤ 64 → (v.run (pieces.map .write ++ [.fin])).2 = [v.cls.digest (m ++ pieces.flatten)] := by
    intro v m pad h hm
    obtain ⟨h3, h4⟩ := HashVar.holds_writes h pieces ⟨by omega, fun _ => h32⟩
    have h5 := HashVar.holds_fin h3
    rw [HashVar.cls_run] at h5
    rw [HashVar.run_append]
    dsimp only
    rw [h4, HashVar.run]
    dsimp only
    rw [h5]
    rfl
  have r0 := Sha2Code.rep_init sha256Ok sha256Count
  refine ⟨?_, ?_, ?_, ?_⟩
  · exact all (v := .newRMD160) (m := []) (pad := []) ⟨Rmd160.rep_init, by decide⟩ (by decide)
  · exact all (v := .new256 e junk) (m := []) (pad := junk) ⟨r0, rfl, by decide, hj⟩ (by decide)
  · exact all (v := .new512 junk') (m := []) (pad := junk') ⟨Sha2Code.rep_init sha512Ok sha512Count, rfl, by decide, hj'⟩ (by decide)
  · have hl := length_sha256 tag
    have r1 := Sha2Code.rep_update sha256Ok sha256Count _ [] (Spec.sha256 tag) r0 (by rw [List.length_nil, hl]; decide)
    have r2 := Sha2Code.rep_update sha256Ok sha256Count _ _ (Spec.sha256 tag) r1 (by rw [List.nil_append, hl]; decide)
    rw [List.nil_append] at r2
    have := all (v := .newTagged junk tag) (m := Spec.sha256 tag ++ Spec.sha256 tag) (pad := junk)
      (by
        unfold HashVar.newTagged
        rw [sha256_eq tag ht]
        exact ⟨r2, rfl, by rw [List.length_append, hl]; decide, hj⟩) (by rw [List.length_append, hl])
    rw [this]
    rfl

/-- Pieces for C91_fresh. -/
example : ([[1], [], [2, 3]] : List Bytes).flatten.length < 2 ^ 60 ∧ (∀ p ∈ ([[1], [], [2, 3]] : List Bytes), p.length < 2 ^ 32) ∧ (zeros 64).length = 64 := by decide

/-- C91 (finding): `begin()` of a TaggedHash forgets the tag: what follows is hashed with plain SHA-256. -/
theorem C91_tagged_begin (junk tag : Bytes) (hj : junk.length = 64) (pieces : List Bytes) (hs : pieces.flatten.length < 2 ^ 61) :
    ((HashVar.newTagged junk tag).run (.start :: pieces.map .write ++ [.fin])).2 = [Spec.sha256 pieces.flatten] := by
  have := C91_begin (.newTagged junk tag) (.inr (.inr (.inr ⟨_, _, hj, rfl⟩))) [] (by intro key h; cases h) pieces
    ⟨by simpa using hs, fun h => by cases h⟩
  rw [List.nil_append] at this
  rw [this]
  rfl

/-- C91 (finding): `begin()` through a pointer or reference to `HashAlgorithm` does nothing (it is not virtual): bytes written before are hashed too. -/
theorem C91_base_begin (v : HashVar) (a b : List HashOp) : v.run (a ++ .baseBegin :: b) = v.run (a ++ b) := by
  rw [HashVar.run_append, HashVar.run_append]
  have : ∀ w : HashVar, w.run (.baseBegin :: b) = w.run b := by
    intro w
    rw [HashVar.run]
    cases w <;> rfl
  rw [this]

/-- C91 (finding): `endHMAC` without `beginHMAC` hashes uninitialised memory. -/
theorem C91_uninitialised (e : End256) (junk : Bytes) (hj : junk.length = 64) (pieces : List Bytes) (hs : pieces.flatten.length < 2 ^ 61) :
    ((HashVar.new256 e junk).run (pieces.map .write ++ [.finHMAC])).2 = [Spec.sha256 (junk ++ Spec.sha256 pieces.flatten)] := by
  have h1 : (HashVar.new256 e junk).Holds [] junk := ⟨Sha2Code.rep_init sha256Ok sha256Count, rfl, by decide, hj⟩
  obtain ⟨h3, h4⟩ := HashVar.holds_writes h1 pieces ⟨by simpa using hs, fun hn => by cases e <;> cases hn⟩
  have h5 := HashVar.holds_finHMAC h3
  rw [HashVar.cls_run, List.nil_append] at h5
  rw [HashVar.run_append]
  dsimp only
  rw [h4, HashVar.run]
  dsimp only
  rw [h5]
  cases e <;> rfl

theorem HashVar.pad_writes (v : HashVar) (pieces : List Bytes) : (v.run (pieces.map .write)).1.pad = v.pad := by
  induction pieces generalizing v with
  | nil => rfl
  | cons p ps ih =>
    rw [List.map_cons, run]
    dsimp only
    rw [ih]
    cases v <;> rfl

/-- C91 (finding): when an HMAC is abandoned with `end()`, the padded key stays in the object. -/
theorem C91_key_stays (v : HashVar) (f : (Bytes → Bytes) × Nat) (hf : v.cls.inner = some f) (key : Bytes) (hk : key.length < 2 ^ 32)
    (pieces : List Bytes) : (v.run (.startHMAC key :: pieces.map .write ++ [.fin])).1.pad = (macBlock f key).map (· ^^^ 0x5c) := by
  obtain ⟨h1, -⟩ := HashVar.holds_startHMAC hf key hk
  have h2 : (v.step (.startHMAC key)).1.pad = (macBlock f key).map (· ^^^ 0x5c) := by
    cases v with
    | rmd c => cases hf
    | s256 e c => exact h1.2.1
    | s512 c => exact h1.2.1
  rw [List.cons_append, HashVar.run]
  dsimp only
  rw [HashVar.run_append]
  have h3 : ∀ w : HashVar, (w.run [.fin]).1.pad = w.pad := by intro w; cases w <;> rfl
  dsimp only
  rw [h3, HashVar.pad_writes, h2]

/-- C91 (finding): after `end()` an object that is not begun anew gives wrong digests, without any sign of it: the state it goes on from is zero.
Already the second digest of nothing is wrong, for every class. -/
theorem C91_not_begun (junk : Bytes) :
    (∀ m, ((HashVar.newRMD160).run [.write m, .fin, .fin]).2 ≠ [((HashVar.newRMD160).run [.write m, .fin]).2.headD [], Spec.ripemd160 []]) ∧
    (∀ m, ((HashVar.new256 .plain junk).run [.write m, .fin, .fin]).2 ≠ [((HashVar.new256 .plain junk).run [.write m, .fin]).2.headD [], Spec.sha256 []]) ∧
    (∀ m, ((HashVar.new512 junk).run [.write m, .fin, .fin]).2 ≠ [((HashVar.new512 junk).run [.write m, .fin]).2.headD [], Spec.sha512 []]) := by
  refine ⟨fun m h => ?_, fun m h => ?_, fun m h => ?_⟩
  · injection h with h1 h2
    injection h2 with h2
    revert h2
    show Rmd160.final HashVar.rmdWiped ≠ _
    decide +kernel
  · injection h with h1 h2
    injection h2 with h2
    revert h2
    show (sha256Code.final sha256Code.wiped).2 ≠ _
    decide +kernel
  · injection h with h1 h2
    injection h2 with h2
    revert h2
    show (sha512Code.final sha512Code.wiped).2 ≠ _
    decide +kernel

end UB
