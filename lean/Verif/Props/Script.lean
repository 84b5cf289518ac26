import Verif.Model.Address
import Verif.Spec.Script
import Verif.Props.Build
import Verif.Props.Hash

/-
C22 (script templates), C26 (pushes as the interpreter sees them), C27 (multisig).
-/

namespace UB
open Spec

/-! ### Hash lengths -/

theorem length_ripemd160 (m : Bytes) : (Spec.ripemd160 m).length = 20 := by
  unfold Spec.ripemd160 Spec.Rmd.hash
  simp [Spec.leBytes, Spec.Rmd.V.toList]

theorem length_hash160 (m : Bytes) : (Spec.hash160 m).length = 20 := length_ripemd160 _

theorem hash160_at_once (m : Bytes) (h : m.length < 2 ^ 60) : hash160 m = Spec.hash160 m := (C43_at_once m h).2.2.1
theorem sha256_at_once (m : Bytes) (h : m.length < 2 ^ 60) : sha256 m = Spec.sha256 m := (C43_at_once m h).1

/-! ### C22 -/

theorem take_drop_one {l : Bytes} {n : Nat} {v : UInt8} (h : l[n]? = some v) : l.drop n = v :: l.drop (n + 1) := by
  obtain ⟨hn, e⟩ := List.getElem?_eq_some_iff.1 h
  rw [← e]; exact List.drop_eq_getElem_cons hn

theorem shape_p2pkh (d : Bytes) : (d.length == 25 && d[0]? == some 0x76 && d[1]? == some 0xa9 && d[2]? == some 20 &&
    d[23]? == some 0x88 && d[24]? == some 0xac) = true ↔ ∃ h, h.length = 20 ∧ d = p2pkhScript h := by
  simp only [Bool.and_eq_true, beq_iff_eq]
  constructor
  · rintro ⟨⟨⟨⟨⟨h25, h0⟩, h1⟩, h2⟩, h3⟩, h4⟩
    refine ⟨(d.drop 3).take 20, by simp [h25], ?_⟩
    have e0 := take_drop_one h0
    rw [take_drop_one h1, take_drop_one h2] at e0
    have e1 : d.drop 3 = (d.drop 3).take 20 ++ (d.drop 3).drop 20 := (List.take_append_drop _ _).symm
    rw [List.drop_drop, take_drop_one h3, take_drop_one h4] at e1
    have e2 : d.drop 25 = [] := List.drop_of_length_le (by omega)
    simp only [e2] at e1
    rw [e1] at e0
    simpa [p2pkhScript] using e0
  · rintro ⟨h, hh, rfl⟩
    simp [p2pkhScript, hh]

theorem shape_p2sh (d : Bytes) : (d.length == 23 && d[0]? == some 0xa9 && d[1]? == some 20 &&
    d[22]? == some 0x87) = true ↔ ∃ h, h.length = 20 ∧ d = p2shScript h := by
  simp only [Bool.and_eq_true, beq_iff_eq]
  constructor
  · rintro ⟨⟨⟨h25, h0⟩, h1⟩, h3⟩
    refine ⟨(d.drop 2).take 20, by simp [h25], ?_⟩
    have e0 := take_drop_one h0
    rw [take_drop_one h1] at e0
    have e1 : d.drop 2 = (d.drop 2).take 20 ++ (d.drop 2).drop 20 := (List.take_append_drop _ _).symm
    rw [List.drop_drop, take_drop_one h3] at e1
    have e2 : d.drop 23 = [] := List.drop_of_length_le (by omega)
    simp only [e2] at e1
    rw [e1] at e0
    simpa [p2shScript] using e0
  · rintro ⟨h, hh, rfl⟩
    simp [p2shScript, hh]

theorem shape_witness (d : Bytes) (n : Nat) (v : UInt8) : (d.length == n + 2 && d[0]? == some 0x00 && d[1]? == some v) = true ↔
    ∃ h, h.length = n ∧ d = [0x00, v] ++ h := by
  simp only [Bool.and_eq_true, beq_iff_eq]
  constructor
  · rintro ⟨⟨h25, h0⟩, h1⟩
    refine ⟨d.drop 2, by simp [h25], ?_⟩
    have e0 := take_drop_one h0
    rw [take_drop_one h1] at e0
    simpa using e0
  · rintro ⟨h, hh, rfl⟩
    simp [hh]

/-- The type of a script from its content. -/
def Spec.scriptTypeIs (d : Bytes) : ScriptType → Prop
  | .p2pkh => ∃ h, h.length = 20 ∧ d = p2pkhScript h
  | .p2sh => ∃ h, h.length = 20 ∧ d = p2shScript h
  | .p2wpkh => ∃ h, h.length = 20 ∧ d = p2wpkhScript h
  | .p2wsh => ∃ h, h.length = 32 ∧ d = p2wshScript h
  | .unknown => (∀ h, h.length = 20 → d ≠ p2pkhScript h ∧ d ≠ p2shScript h ∧ d ≠ p2wpkhScript h) ∧
      ∀ h, h.length = 32 → d ≠ p2wshScript h
  | .p2sh_p2wpkh => False
  | .p2sh_p2wsh => False

/-- No script is of two types. -/
theorem scriptType_unique (d : Bytes) (t t' : ScriptType) (h : scriptTypeIs d t) (h' : scriptTypeIs d t') : t = t' := by
  have key : ∀ t, scriptTypeIs d t → t ≠ .unknown →
      (t = .p2pkh ∧ d.length = 25) ∨ (t = .p2sh ∧ d.length = 23) ∨ (t = .p2wpkh ∧ d.length = 22) ∨
        (t = .p2wsh ∧ d.length = 34) := by
    intro t h ht
    cases t <;> simp only [scriptTypeIs] at h <;> simp at ht ⊢
    all_goals
      obtain ⟨x, hx, rfl⟩ := h
      simp [p2pkhScript, p2shScript, p2wpkhScript, p2wshScript, hx]
  have un : ∀ t, scriptTypeIs d .unknown → scriptTypeIs d t → t = .unknown := by
    intro t hu h
    cases t <;> simp only [scriptTypeIs] at h
    · rfl
    all_goals obtain ⟨x, hx, hd⟩ := h
    · exact absurd hd (hu.1 x hx).1
    · exact absurd hd (hu.1 x hx).2.1
    · exact absurd hd (hu.1 x hx).2.2
    · exact absurd hd (hu.2 x hx)
  by_cases h1 : t = .unknown
  · subst h1; exact (un _ h h').symm
  by_cases h2 : t' = .unknown
  · subst h2; exact un _ h' h
  rcases key t h h1 with k | k | k | k <;> rcases key t' h' h2 with k' | k' | k' | k' <;>
    first
    | exact k.1.trans k'.1.symm
    | (exfalso; omega)

/-- C22: `type()` gives a type exactly to the scripts of that standard shape, and "unknown" exactly to the
scripts of none of these shapes. -/
theorem C22_type_exact (sc : Script) (d : Bytes) (hs : sc.Holds d) (t : ScriptType) :
    sc.type = t ↔ scriptTypeIs d t := by
  have key : scriptTypeIs d sc.type := by
    have s1 := shape_p2pkh d
    have s2 := shape_p2sh d
    have s3 := shape_witness d 20 20
    have s4 := shape_witness d 32 32
    simp only [show 20 + 2 = 22 from rfl, show 32 + 2 = 34 from rfl] at s3 s4
    unfold Script.type
    rw [hs.1, hs.2]
    simp only []
    split_ifs with c1 c2 c3 c4
    · exact s1.1 c1
    · exact s2.1 c2
    · exact s3.1 c3
    · exact s4.1 c4
    · exact ⟨fun h hh => ⟨fun e => c1 (s1.2 ⟨h, hh, e⟩), fun e => c2 (s2.2 ⟨h, hh, e⟩), fun e => c3 (s3.2 ⟨h, hh, e⟩)⟩,
        fun h hh e => c4 (s4.2 ⟨h, hh, e⟩)⟩
  constructor
  · rintro rfl; exact key
  · intro h; exact scriptType_unique d _ _ key h

/-- C22: each library constructor yields exactly the standard script of its kind, and it is classified as that
kind. -/
theorem C22_constructors (sec : Bytes) (hsec : sec.length < 2 ^ 60) (sc : Script) (d : Bytes) (hs : sc.Holds d)
    (hd : d.length < 2 ^ 60) :
    (pkh sec).Holds (p2pkhScript (Spec.hash160 sec)) ∧ (pkh sec).type = .p2pkh ∧
    (wpkh sec).Holds (p2wpkhScript (Spec.hash160 sec)) ∧ (wpkh sec).type = .p2wpkh ∧
    (sh sc).Holds (p2shScript (Spec.hash160 d)) ∧ (sh sc).type = .p2sh ∧
    (wsh sc).Holds (p2wshScript (Spec.sha256 d)) ∧ (wsh sc).type = .p2wsh ∧
    (Script.ofKey sec .p2pkh).Holds (p2pkhScript (Spec.hash160 sec)) ∧
    (Script.ofKey sec .p2wpkh).Holds (p2wpkhScript (Spec.hash160 sec)) ∧
    (Script.ofScript sc .p2sh).Holds (p2shScript (Spec.hash160 d)) ∧
    (Script.ofScript sc .p2wsh).Holds (p2wshScript (Spec.sha256 d)) := by
  have l1 := length_hash160 sec
  have l2 := length_hash160 d
  have l3 := length_sha256 d
  have ed : sc.arr.take sc.scriptLen = d := by rw [hs.1, hs.2, List.take_length]
  have ob : ∀ x : Bytes, x.length ≤ 10000 → (Script.ofBuffer x).Holds x := by
    intro x hx
    have := C25_push_data {} [] x ⟨rfl, rfl⟩
    rw [if_pos (by simpa using hx)] at this
    simpa [Script.ofBuffer] using this.1
  have h1 : (pkh sec).Holds (p2pkhScript (Spec.hash160 sec)) := by
    unfold pkh; rw [hash160_at_once sec hsec]; exact ob _ (by simp [l1])
  have h2 : (wpkh sec).Holds (p2wpkhScript (Spec.hash160 sec)) := by
    unfold wpkh; rw [hash160_at_once sec hsec]; exact ob _ (by simp [l1])
  have h3 : (sh sc).Holds (p2shScript (Spec.hash160 d)) := by
    unfold sh; rw [ed, hash160_at_once d hd]; exact ob _ (by simp [l2])
  have h4 : (wsh sc).Holds (p2wshScript (Spec.sha256 d)) := by
    unfold wsh; rw [ed, sha256_at_once d hd]; exact ob _ (by simp [l3])
  refine ⟨h1, (C22_type_exact _ _ h1 _).2 ⟨_, l1, rfl⟩, h2, (C22_type_exact _ _ h2 _).2 ⟨_, l1, rfl⟩,
    h3, (C22_type_exact _ _ h3 _).2 ⟨_, l2, rfl⟩, h4, (C22_type_exact _ _ h4 _).2 ⟨_, l3, rfl⟩, ?_, ?_, ?_, ?_⟩
  · simp only [Script.ofKey, if_true]; rw [hash160_at_once sec hsec]
    exact ⟨by simp [p2pkhScript, l1], rfl⟩
  · simp only [Script.ofKey, if_true, reduceCtorEq, if_false]; rw [hash160_at_once sec hsec]
    exact ⟨by simp [p2wpkhScript, l1], rfl⟩
  · simp only [Script.ofScript, if_true]; rw [ed, hash160_at_once d hd]
    exact ⟨by simp [p2shScript, l2], rfl⟩
  · simp only [Script.ofScript, if_true, reduceCtorEq, if_false]; rw [ed, sha256_at_once d hd]
    exact ⟨by simp [p2wshScript, l3], rfl⟩

/-- A concrete script: pay to the all-zero key hash. -/
example : ({ scriptLen := 25, arr := p2pkhScript (zeros 20) } : Script).type = .p2pkh :=
  (C22_type_exact _ (p2pkhScript (zeros 20)) ⟨rfl, rfl⟩ .p2pkh).2 ⟨zeros 20, rfl, rfl⟩

/-! ### C26 -/

theorem getOp_push (data rest : Bytes) (h : data.length ≤ 75) :
    getOp (UInt8.ofNat data.length :: (data ++ rest)) = some (.push data, rest) := by
  have e : (UInt8.ofNat data.length).toNat = data.length := by simp; omega
  simp only [getOp]
  rw [if_pos (by rw [UInt8.le_iff_toNat_le, e]; exact h), e, takePush, if_pos (by simp)]
  simp

/-- C26: a pushed public key is one data push of exactly its serialization. -/
theorem C26_push_key (sc : Script) (d sec rest : Bytes) (h : sc.Holds d) (hs : sec.length = 33 ∨ sec.length = 65)
    (hd : d.length + 1 + sec.length ≤ 10000) :
    ∃ p, (sc.pushKey sec).1.Holds (d ++ p) ∧ (sc.pushKey sec).2 = (d ++ p).length ∧
      getOp (p ++ rest) = some (.push sec, rest) := by
  refine ⟨UInt8.ofNat sec.length :: sec, ?_, ?_, by
    simpa using getOp_push sec rest (by omega)⟩
  all_goals
    have h1 := C25_push_byte sc d (UInt8.ofNat sec.length) h
    rw [if_pos (by omega)] at h1
    have h2 := C25_push_data _ _ sec h1.1
    rw [if_pos (by simp; omega)] at h2
    have h3 := h2.1
    simp only [List.append_assoc, List.singleton_append] at h3
    unfold Script.pushKey
  · exact h3
  · exact h3.1

/-- C26: a pushed signature is one data push of its DER form followed by the hash type byte. -/
theorem C26_push_sig (sc : Script) (d der rest : Bytes) (ty : UInt8) (h : sc.Holds d) (hs : der.length ≤ 74)
    (hd : d.length + 2 + der.length ≤ 10000) :
    ∃ p, (sc.pushSig der ty).1.Holds (d ++ p) ∧ (sc.pushSig der ty).2 = (d ++ p).length ∧
      getOp (p ++ rest) = some (.push (der ++ [ty]), rest) := by
  refine ⟨UInt8.ofNat (der ++ [ty]).length :: (der ++ [ty]), ?_, ?_, by
    simpa using getOp_push (der ++ [ty]) rest (by simp; omega)⟩
  all_goals
    have h1 := C25_push_byte sc d (UInt8.ofNat (der.length + 1)) h
    rw [if_pos (by omega)] at h1
    have h2 := C25_push_data _ _ der h1.1
    rw [if_pos (by simp; omega)] at h2
    have h3 := C25_push_byte _ _ ty h2.1
    rw [if_pos (by simp; omega)] at h3
    have h4 := h3.1
    simp only [List.append_assoc, List.singleton_append, List.cons_append] at h4
    unfold Script.pushSig
    have e : (der ++ [ty]).length = der.length + 1 := by simp
    rw [e]
  · exact h4
  · exact h4.1

theorem pushScript_holds (sc other : Script) (d e : Bytes) (h : sc.Holds d) (ho : other.Holds e)
    (hd : d.length + (varBytes e).length ≤ 10000) :
    ∃ sc', sc.pushScript other = .ok (sc', (d ++ varBytes e).length) ∧ sc'.Holds (d ++ varBytes e) := by
  have he : e.length < 2 ^ 64 := by simp [varBytes] at hd; omega
  unfold Script.pushScript
  rw [serialize_eq _ _ (Script.toStream_eq other e ho he), Script.length_eq other e ho he]
  simp only [C.bind_ok, serialized, List.drop_zero, List.take_length, Nat.sub_self, List.replicate_zero, List.append_nil, C.pure_eq]
  have h1 := C25_push_data sc d (varBytes e) h
  rw [if_pos hd] at h1
  exact ⟨_, by rw [h1.1.1], h1.1⟩

/-- C26: a pushed script of at most 75 bytes is one data push of exactly its content. -/
theorem C26_push_script_partial (sc other : Script) (d e rest : Bytes) (h : sc.Holds d) (ho : other.Holds e)
    (he : e.length ≤ 75) (hd : d.length + 1 + e.length ≤ 10000) :
    ∃ sc' p, sc.pushScript other = .ok (sc', (d ++ p).length) ∧ sc'.Holds (d ++ p) ∧
      getOp (p ++ rest) = some (.push e, rest) := by
  have hv : varBytes e = UInt8.ofNat e.length :: e := by
    simp only [varBytes, compactSize]
    rw [if_pos (by omega)]; rfl
  obtain ⟨sc', h1, h2⟩ := pushScript_holds sc other d e h ho (by rw [hv, List.length_cons]; omega)
  exact ⟨sc', _, h1, h2, by rw [hv]; simpa using getOp_push e rest he⟩

/-- C26, the limit of the code: the bytes appended for a script of 76 to 9000 bytes are never read as one data push of
that script. (Where the standard asks for OP_PUSHDATA1 or OP_PUSHDATA2 the code writes a CompactSize length.) -/
theorem C26_long_script_wrong (sc other : Script) (d e rest : Bytes) (h : sc.Holds d) (ho : other.Holds e)
    (he : 76 ≤ e.length) (he2 : e.length ≤ 9000) (hd : d.length + 3 + e.length ≤ 10000) :
    ∃ sc' p, sc.pushScript other = .ok (sc', (d ++ p).length) ∧ sc'.Holds (d ++ p) ∧
      getOp (p ++ rest) ≠ some (.push e, rest) := by
  have hc := compactSize_length e.length
  have hl : (varBytes e).length ≤ 3 + e.length := by
    simp only [varBytes, List.length_append, compactSize]
    split_ifs <;> simp <;> omega
  obtain ⟨sc', h1, h2⟩ := pushScript_holds sc other d e h ho (by omega)
  refine ⟨sc', _, h1, h2, ?_⟩
  intro hx
  -- a data push with prefix of the same total length
  have tp : ∀ n (r : Bytes), takePush n r = some (.push e, rest) → r.length = e.length + rest.length := by
    intro n r hr
    unfold takePush at hr
    split_ifs at hr with hn
    simp only [Option.some.injEq, Prod.mk.injEq, Op.push.injEq] at hr
    rw [← List.take_append_drop n r, hr.1, hr.2, List.length_append]
  unfold varBytes compactSize at hx
  split_ifs at hx with h1 h2
  · have et : (UInt8.ofNat e.length).toNat = e.length := by simp; omega
    have ne : ¬ UInt8.ofNat e.length ≤ 75 := by rw [UInt8.le_iff_toNat_le, et]; simp; omega
    simp only [List.singleton_append, List.cons_append, List.nil_append, getOp, if_neg ne] at hx
    split_ifs at hx with g1 g2 g3
    · cases e with
      | nil => simp at he
      | cons a e' =>
        have := tp _ (_ ++ rest) hx
        simp at this
    · cases e with
      | nil => simp at he
      | cons a e' =>
        cases e' with
        | nil => simp at he
        | cons b e' =>
          have := tp _ (_ ++ rest) hx
          simp only [List.length_append, List.length_cons] at this
          omega
    · match e, he, hx, tp with
      | a :: b :: c :: f :: e', _, hx, tp =>
        have := tp _ (_ ++ rest) hx
        simp only [List.length_append, List.length_cons] at this
        omega
    · simp at hx
  · simp only [List.cons_append, getOp] at hx
    simp at hx
  · omega
  · omega

/-- A script of 100 bytes pushed into an empty script. -/
example : ∃ sc' p, ({} : Script).pushScript { scriptLen := 100, arr := List.replicate 100 1 } = .ok (sc', ([] ++ p).length) ∧
    sc'.Holds ([] ++ p) ∧ getOp (p ++ []) ≠ some (.push (List.replicate 100 1), []) :=
  C26_long_script_wrong _ _ [] (List.replicate 100 1) [] ⟨rfl, rfl⟩ ⟨by simp, rfl⟩ (by simp) (by simp) (by simp)

example : ∃ p, (({} : Script).pushKey (2 :: List.replicate 32 7)).1.Holds ([] ++ p) ∧
    (({} : Script).pushKey (2 :: List.replicate 32 7)).2 = ([] ++ p).length ∧
    getOp (p ++ [0xac]) = some (.push (2 :: List.replicate 32 7), [0xac]) :=
  C26_push_key {} [] _ [0xac] ⟨rfl, rfl⟩ (by decide) (by decide)

/-! ### C27 -/

theorem multiKeys_holds (keys : List Bytes) : ∀ (sc : Script) (d : Bytes), sc.Holds d → (∀ k ∈ keys, k.length ≤ 65) →
    d.length + 66 * keys.length ≤ 10000 →
    (multiKeys sc keys).Holds (d ++ keys.flatMap fun k => UInt8.ofNat k.length :: k) := by
  induction keys with
  | nil => intro sc d h _ _; simpa [multiKeys] using h
  | cons k keys ih =>
    intro sc d h hk hl
    simp only [List.length_cons] at hl
    have hk0 := hk k (by simp)
    have h1 := C25_push_byte sc d (UInt8.ofNat k.length) h
    rw [if_pos (by omega)] at h1
    have h2 := C25_push_data _ _ k h1.1
    rw [if_pos (by simp; omega)] at h2
    have h3 := ih _ _ h2.1 (fun x hx => hk x (by simp [hx])) (by simp; omega)
    simpa [multiKeys, Script.pushKey] using h3

/-- C27: `multi` gives the BIP 11 script for `1 ≤ m ≤ n ≤ 16` and an empty script otherwise. -/
theorem C27_multi (m : UInt8) (keys : List Bytes) (hk : ∀ k ∈ keys, k.length ≤ 65) :
    (multi m keys).Holds
      (if 1 ≤ m.toNat ∧ m.toNat ≤ keys.length ∧ keys.length ≤ 16 then multisigScript m.toNat keys else []) := by
  have hm0 : m = 0 ↔ m.toNat = 0 := by rw [← UInt8.toNat_inj]; rfl
  unfold multi
  by_cases hc : 1 ≤ m.toNat ∧ m.toNat ≤ keys.length ∧ keys.length ≤ 16
  · rw [if_pos hc, if_neg (by rw [hm0]; omega)]
    have h1 := C25_push_byte ({} : Script) [] (81 + m - 1) ⟨rfl, rfl⟩
    rw [if_pos (by decide)] at h1
    have h2 := multiKeys_holds keys _ _ h1.1 hk (by simp; omega)
    have hl : (keys.flatMap fun k => UInt8.ofNat k.length :: k).length ≤ 66 * keys.length := by
      clear h2 hc
      induction keys with
      | nil => simp
      | cons k keys ih =>
        have hk0 := hk k (by simp)
        have := ih (fun x hx => hk x (by simp [hx]))
        simp only [List.flatMap_cons, List.length_append, List.length_cons] at this ⊢
        omega
    have h3 := C25_push_byte _ _ (81 + UInt8.ofNat keys.length - 1) h2
    rw [if_pos (by simp only [List.length_append, List.length_singleton, List.length_nil]; omega)] at h3
    have h4 := C25_push_byte _ _ 174 h3.1
    rw [if_pos (by simp only [List.length_append, List.length_singleton, List.length_nil]; omega)] at h4
    have h5 := h4.1
    have e1 : 81 + m - 1 = UInt8.ofNat (80 + m.toNat) := by
      rw [← UInt8.toNat_inj, UInt8.toNat_sub, UInt8.toNat_add]
      simp; omega
    have e2 : 81 + UInt8.ofNat keys.length - 1 = UInt8.ofNat (80 + keys.length) := by
      rw [← UInt8.toNat_inj, UInt8.toNat_sub, UInt8.toNat_add]
      simp; omega
    rw [e1, e2] at h5
    simpa [multisigScript, e1, e2] using h5
  · rw [if_neg hc, if_pos (by rw [hm0]; omega)]
    exact ⟨rfl, rfl⟩

/-- C27, `sortedmulti`: its script always lists the keys in the order given ... -/
theorem C27_sortedmulti_unsorted (m : UInt8) (keys : List Bytes) (hk : ∀ k ∈ keys, k.length ≤ 65)
    (hm : 1 ≤ m.toNat) (hn : m.toNat ≤ keys.length) (h16 : keys.length ≤ 16) :
    (sortedmulti m keys).Holds (multisigScript m.toNat keys) := by
  have := C27_multi m keys hk
  rwa [if_pos ⟨hm, hn, h16⟩] at this

/-- ... so two different keys given in two orders lead to two different scripts (BIP 67 asks for the same one). -/
theorem C27_sortedmulti_wrong (m : UInt8) (a b : Bytes) (ha : a.length = 33) (hb : b.length = 33) (hab : a ≠ b)
    (hm : 1 ≤ m.toNat) (hn : m.toNat ≤ 2) : sortedmulti m [a, b] ≠ sortedmulti m [b, a] := by
  intro h
  have h1 := C27_sortedmulti_unsorted m [a, b] (by simp; omega) hm hn (by simp)
  have h2 := C27_sortedmulti_unsorted m [b, a] (by simp; omega) hm hn (by simp)
  rw [h] at h1
  have e := h1.2.symm.trans h2.2
  simp only [multisigScript, List.flatMap_cons, List.flatMap_nil, List.append_nil, List.append_assoc, List.cons_append,
    List.nil_append, List.cons.injEq, true_and, List.singleton_append, ha, hb] at e
  exact hab (List.append_inj_left e (by rw [ha, hb]))

example : sortedmulti 1 [2 :: List.replicate 32 7, 3 :: List.replicate 32 7] ≠
    sortedmulti 1 [3 :: List.replicate 32 7, 2 :: List.replicate 32 7] :=
  C27_sortedmulti_wrong 1 _ _ (by decide) (by decide) (by decide) (by decide) (by decide)

end UB
