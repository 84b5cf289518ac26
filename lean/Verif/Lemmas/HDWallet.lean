import Verif.Model.HDWallet
import Verif.Spec.HDWallet
import Verif.Props.Secret

/-
Lemmas on extended keys: HMAC objects, reading and writing.
-/

namespace UB
open Spec BN

attribute [local irreducible] secpP secpN BN.multiply BN.fastMod BN.mod BN.subtractmod BN.multK BN.addmod BN.inverse BN.lshift BN.subi BN.add
  BN.multHalf BN.cmov BN.isEqual BN.isZero BN.sqrt BN.subtract scalarMultiply pointMultiply CurvePoint.add readBE writeBE BN.addi

/-! ### HMAC -/

namespace Sha2Code
variable {W BC : Type} [Add W] [OfNat W 0] [Inhabited W] {P : Sha2Code W BC} {S : Spec.Sha2 W}
variable {cnt : BC → Nat → Prop}

theorem hmac_writes (ok : Sha2Ok P S) (ct : Sha2Count P S cnt) (pd : Sha2Pads P S) (key : Bytes)
    (pieces : List Bytes) (hk : key.length < 2 ^ 32) (hl : pieces.flatten.length < 2 ^ 60) :
    P.hmacFinal { P.hmacInit key with ctx := pieces.foldl P.update (P.hmacInit key).ctx } = Spec.hmac S.hash S.blockBytes key pieces.flatten := by
  have hw := pd.small
  have hB : S.blockBytes ≤ 128 := by unfold Spec.Sha2.blockBytes; omega
  rw [hmac_eq]
  simp only [hmacFinal, hmacInit, cut32_eq key hk, keyBlock_eq ok ct key (by omega)]
  have hkl := length_padKey S key
  have li : ((padKey S key).map (· ^^^ 0x36)).length = S.blockBytes := by rw [List.length_map, hkl]
  have lo : ((padKey S key).map (· ^^^ 0x5c)).length = S.blockBytes := by rw [List.length_map, hkl]
  have r1 := rep_update ok ct _ [] ((padKey S key).map (· ^^^ 0x36)) (rep_init ok ct)
    (by rw [li, List.length_nil]; omega)
  rw [List.nil_append] at r1
  have r2 := rep_updates ok ct pieces _ _ r1 (by rw [li]; omega)
  have e2 := final_spec ok ct _ _ r2 (by rw [List.length_append, li]; omega)
  rw [e2]
  have q1 := rep_update ok ct _ [] ((padKey S key).map (· ^^^ 0x5c)) (rep_init ok ct)
    (by rw [lo, List.length_nil]; omega)
  rw [List.nil_append] at q1
  have q2 := rep_update ok ct _ _ (S.hash ((padKey S key).map (· ^^^ 0x36) ++ pieces.flatten)) q1
    (by rw [lo, length_hash]; omega)
  exact final_spec ok ct _ _ q2 (by rw [List.length_append, lo, length_hash]; omega)

end Sha2Code

theorem hmac512_spec (key : Bytes) (pieces : List Bytes) (hk : key.length < 2 ^ 32) (hl : pieces.flatten.length < 2 ^ 60) :
    hmac512 key pieces = hmacSha512 key pieces.flatten := by
  have e : ∀ (ps : List Bytes) (h : Sha2Code.HmacCtx UInt64 (UInt64 × UInt64)),
      ps.foldl (fun h p => { h with ctx := sha512Code.update h.ctx p }) h = { h with ctx := ps.foldl sha512Code.update h.ctx } := by
    intro ps
    induction ps with
    | nil => intro h; rfl
    | cons p ps ih => intro h; rw [List.foldl_cons, List.foldl_cons, ih]
  unfold hmac512
  rw [e]
  exact Sha2Code.hmac_writes sha512Ok sha512Count sha512Pads key pieces hk hl

theorem length_hmacSha512 (k m : Bytes) : (hmacSha512 k m).length = 64 := length_sha512 _

theorem hash160_eq (m : Bytes) (h : m.length < 2 ^ 60) : hash160 m = Spec.hash160 m := (C43_at_once m h).2.2.1

/-! ### Numbers in 4 bytes -/

theorem be32_spec (n : UInt32) : be32 n = beBytes 4 n.toNat := by
  unfold be32
  have h : ∀ x y : UInt8, x.toNat = y.toNat → x = y := fun _ _ => UInt8.toNat_inj.mp
  simp only [beBytes, leBytes, List.reverse_cons, List.reverse_nil, List.nil_append, List.cons_append, List.cons.injEq, and_true]
  refine ⟨?_, ?_, ?_, ?_⟩ <;> apply h <;> simp [Nat.shiftRight_eq_div_pow] <;> omega

theorem read32_spec (c0 : UInt32) (m : Bytes) (hm : m.length = 4) :
    m.foldl (fun (c : UInt32) (b : UInt8) => (c <<< 8) + b.toUInt32) c0 = UInt32.ofNat (beNat m) := by
  match m, hm with
  | [a, b, c, d], _ =>
    apply UInt32.toNat_inj.mp
    have := a.toNat_lt
    have := b.toNat_lt
    have := c.toNat_lt
    have := d.toNat_lt
    simp [beNat, Nat.shiftLeft_eq]
    omega

/-! ### Reading the first 45 bytes -/

/-- The array `arr` has received its part (from byte `lo` up to byte `hi`) of the bytes `m` read so far. -/
def Sec (lo hi : Nat) (m arr : Bytes) : Prop := (m.drop lo).take (hi - lo) <+: arr

theorem Sec.full {lo hi : Nat} {m arr : Bytes} (h : Sec lo hi m arr) (hm : hi ≤ m.length) : arr.take (hi - lo) = (m.drop lo).take (hi - lo) := by
  obtain ⟨t, rfl⟩ := h
  rw [List.take_append_of_le_length (by simp; omega), List.take_of_length_le (by simp)]

theorem Sec.keep {lo hi : Nat} {m arr : Bytes} (h : Sec lo hi m arr) (x : Bytes) (hm : hi ≤ m.length ∨ x = []) : Sec lo hi (m ++ x) arr := by
  rcases hm with hm | rfl
  · unfold Sec
    by_cases hl : lo ≤ m.length
    · rw [List.drop_append_of_le_length hl, List.take_append_of_le_length (by simp; omega)]
      exact h
    · rw [show hi - lo = 0 by omega]
      simp
  · rwa [List.append_nil]

theorem fill_sec {lo hi : Nat} {m arr : Bytes} (c : Bytes) (h : Sec lo hi m arr) (ha : hi - lo ≤ arr.length) (hlh : lo ≤ hi) (hm : lo ≤ m.length ∨ c = []) :
    ∃ arr', fill arr lo m.length (c.take (hi - m.length)) = .ok arr' ∧ arr'.length = arr.length ∧ Sec lo hi (m ++ c.take (hi - m.length)) arr' := by
  unfold fill
  by_cases h0 : c.take (hi - m.length) = []
  · rw [if_pos h0, h0]
    exact ⟨arr, rfl, rfl, h.keep [] (Or.inr rfl)⟩
  · rw [if_neg h0]
    have hne : c ≠ [] := by rintro rfl; simp at h0
    have hlm : lo ≤ m.length := by tauto
    have hlt : m.length < hi := by
      by_contra hge
      rw [show hi - m.length = 0 by omega] at h0
      simp at h0
    obtain ⟨t, ht⟩ := h
    have hd : (m.drop lo).take (hi - lo) = m.drop lo := List.take_of_length_le (by simp; omega)
    rw [hd] at ht
    have hlen : (c.take (hi - m.length)).length ≤ hi - m.length := by simp
    generalize c.take (hi - m.length) = x at *
    unfold store
    rw [if_pos (by omega)]
    refine ⟨_, rfl, ?_, ?_⟩
    · simp; omega
    · unfold Sec
      rw [List.drop_append_of_le_length hlm, List.take_of_length_le (by simp; omega), ← ht, List.take_left' (by simp)]
      exact List.prefix_append _ _

namespace HDHead

/-- The members of an extended key after the bytes `m` have been read. -/
structure At (prefixes : Network → List (Bytes × HDType)) (h : HDHead) (m : Bytes) : Prop where
  preLen : h.pre.length = 4
  fpLen : h.fingerprint.length = 4
  ccLen : h.chainCode.length = 32
  pre : Sec 0 4 m h.pre
  known : 4 ≤ m.length → findPrefix prefixes (m.take 4) networks = some (h.network, h.type)
  depth : 5 ≤ m.length → (m.drop 4).head? = some h.depth
  fp : Sec 5 9 m h.fingerprint
  number : ∃ c0, h.childNumber = ((m.drop 9).take 4).foldl (fun (c : UInt32) (b : UInt8) => (c <<< 8) + b.toUInt32) c0
  cc : Sec 13 45 m h.chainCode

theorem At.empty {prefixes : Network → List (Bytes × HDType)} {h : HDHead} (h1 : h.pre.length = 4) (h2 : h.fingerprint.length = 4)
    (h3 : h.chainCode.length = 32) : At prefixes h [] :=
  ⟨h1, h2, h3, by simp [Sec], by simp, by simp, by simp [Sec], ⟨h.childNumber, by simp⟩, by simp [Sec]⟩

end HDHead

/-- Reading up to byte `lo` and then up to byte `hi` is reading up to byte `hi`. -/
theorem take_chain (m c : Bytes) {lo hi : Nat} (h : lo ≤ hi) :
    (m ++ c.take (lo - m.length)) ++ (c.drop (lo - m.length)).take (hi - (m ++ c.take (lo - m.length)).length) = m ++ c.take (hi - m.length) ∧
    (c.drop (lo - m.length)).drop (hi - (m ++ c.take (lo - m.length)).length) = c.drop (hi - m.length) ∧
    (lo ≤ (m ++ c.take (lo - m.length)).length ∨ c.drop (lo - m.length) = []) := by
  simp only [List.length_append, List.length_take, List.append_assoc, List.append_cancel_left_eq]
  by_cases hc : lo - m.length ≤ c.length
  · rw [Nat.min_eq_left hc, show hi - (m.length + (lo - m.length)) = hi - m.length - (lo - m.length) by omega]
    refine ⟨?_, ?_, Or.inl (by omega)⟩
    · rw [← List.take_add, Nat.add_sub_cancel' (by omega)]
    · rw [List.drop_drop, Nat.add_sub_cancel' (by omega)]
  · have h1 : c.take (lo - m.length) = c := List.take_of_length_le (by omega)
    have h2 : c.drop (lo - m.length) = [] := List.drop_eq_nil_of_le (by omega)
    have h3 : c.take (hi - m.length) = c := List.take_of_length_le (by omega)
    have h4 : c.drop (hi - m.length) = [] := List.drop_eq_nil_of_le (by omega)
    simp [h1, h2, h3, h4]

theorem readN_plain (c : Bytes) (n : Nat) : PStream.readN { bytes := c } n = (c.take n, { bytes := c.drop n }) := by
  simp [PStream.readN]

namespace HDHead

variable {prefixes : Network → List (Bytes × HDType)} {h : HDHead} {m : Bytes}

theorem readPrefix_at (c : Bytes) (ha : At prefixes h m)
    (hf : 4 ≤ (m ++ c).length → (findPrefix prefixes ((m ++ c).take 4) networks).isSome) :
    ∃ h', h.readPrefix prefixes m.length { bytes := c } = .ok (h', (m ++ c.take (4 - m.length)).length, { bytes := c.drop (4 - m.length) }, true) ∧
      At prefixes h' (m ++ c.take (4 - m.length)) := by
  obtain ⟨pre, e1, e2, e3⟩ := fill_sec c ha.pre (by rw [ha.preLen]) (by omega) (Or.inl (Nat.zero_le _))
  have hx : 4 ≤ m.length ∨ m.length ≤ 4 := by omega
  unfold readPrefix
  rw [readN_plain]
  dsimp only
  rw [e1, C.bind_ok, ← List.length_append]
  by_cases h4 : 4 ≤ m.length
  · have h0 : c.take (4 - m.length) = [] := by rw [show 4 - m.length = 0 by omega]; simp
    rw [h0, List.append_nil] at e3 ⊢
    have hk := ha.known h4
    by_cases h5 : m.length = 4
    · have hp : pre = m.take 4 := by
        have := e3.full (by omega)
        rw [List.take_of_length_le (by rw [e2, ha.preLen]), List.drop_zero] at this
        exact this
      rw [if_pos h5, hp, hk]
      exact ⟨_, rfl, by rw [← hp, e2, ha.preLen], ha.fpLen, ha.ccLen, hp ▸ e3, fun _ => hk, ha.depth, ha.fp, ha.number, ha.cc⟩
    · rw [if_neg h5]
      exact ⟨_, rfl, by rw [e2, ha.preLen], ha.fpLen, ha.ccLen, e3, fun _ => hk, ha.depth, ha.fp, ha.number, ha.cc⟩
  · have hlen : (m ++ c.take (4 - m.length)).length ≤ 4 := by simp; omega
    have hd : ∀ n, 4 ≤ n → (m ++ c.take (4 - m.length)).drop n = [] := fun n hn => List.drop_eq_nil_of_le (by omega)
    have a1 : Sec 5 9 (m ++ c.take (4 - m.length)) h.fingerprint := by unfold Sec; rw [hd 5 (by omega)]; simp
    have a2 : Sec 13 45 (m ++ c.take (4 - m.length)) h.chainCode := by unfold Sec; rw [hd 13 (by omega)]; simp
    have a3 : ∃ c0, h.childNumber = (((m ++ c.take (4 - m.length)).drop 9).take 4).foldl (fun (c : UInt32) (b : UInt8) => (c <<< 8) + b.toUInt32) c0 :=
      ⟨h.childNumber, by rw [hd 9 (by omega)]; simp⟩
    by_cases h5 : (m ++ c.take (4 - m.length)).length = 4
    · have hp : pre = m ++ c.take (4 - m.length) := by
        have := e3.full (by omega)
        rwa [List.take_of_length_le (by rw [e2, ha.preLen]), List.drop_zero, List.take_of_length_le (by omega)] at this
      have hq : (m ++ c).take 4 = m ++ c.take (4 - m.length) := by
        rw [List.take_append, List.take_of_length_le (by omega)]
      rw [if_pos h5, hp]
      rw [hq] at hf
      obtain ⟨⟨n, t⟩, hnt⟩ := Option.isSome_iff_exists.mp (hf (by simp at h5 ⊢; omega))
      rw [hnt]
      exact ⟨_, rfl, h5, ha.fpLen, ha.ccLen, by rw [← hp]; rw [← hp] at e3; exact e3, fun _ => by rw [List.take_of_length_le (by omega)]; exact hnt,
        fun h => absurd h (by omega), a1, a3, a2⟩
    · rw [if_neg h5]
      exact ⟨_, rfl, by rw [e2, ha.preLen], ha.fpLen, ha.ccLen, e3, fun h => absurd h (by omega), fun h => absurd h (by omega), a1, a3, a2⟩

theorem readPrefix_unknown (c : Bytes) (ha : At prefixes h m) (hm : m.length < 4) (hl : 4 ≤ (m ++ c).length)
    (hf : findPrefix prefixes ((m ++ c).take 4) networks = none) :
    ∃ h' n st, h.readPrefix prefixes m.length { bytes := c } = .ok (h', n, st, false) := by
  obtain ⟨pre, e1, e2, e3⟩ := fill_sec c ha.pre (by rw [ha.preLen]) (by omega) (Or.inl (Nat.zero_le _))
  unfold readPrefix
  rw [readN_plain]
  dsimp only
  rw [e1, C.bind_ok, ← List.length_append]
  have h5 : (m ++ c.take (4 - m.length)).length = 4 := by simp at hl ⊢; omega
  have hp : pre = m ++ c.take (4 - m.length) := by
    have := e3.full (by omega)
    rwa [List.take_of_length_le (by rw [e2, ha.preLen]), List.drop_zero, List.take_of_length_le (by omega)] at this
  have hq : (m ++ c).take 4 = m ++ c.take (4 - m.length) := by
    rw [List.take_append, List.take_of_length_le (by omega)]
  rw [if_pos h5, hp, ← hq, hf]
  exact ⟨_, _, _, rfl⟩

theorem _root_.UB.Sec.other {lo hi : Nat} {m arr : Bytes} (h : Sec lo hi m arr) (x : Bytes) (hx : x.length = 0 ∨ hi ≤ m.length ∨ (m ++ x).length ≤ lo) :
    Sec lo hi (m ++ x) arr := by
  rcases hx with hx | hx | hx
  · obtain rfl := List.length_eq_zero_iff.mp hx; exact h.keep [] (Or.inr rfl)
  · exact h.keep x (Or.inl hx)
  · unfold Sec
    rw [List.drop_eq_nil_of_le hx]
    simp

theorem known_other (ha : At prefixes h m) (x : Bytes) (hx : x.length = 0 ∨ 4 ≤ m.length) :
    4 ≤ (m ++ x).length → findPrefix prefixes ((m ++ x).take 4) networks = some (h.network, h.type) := by
  rcases hx with hx | hx
  · obtain rfl := List.length_eq_zero_iff.mp hx; rw [List.append_nil]; exact ha.known
  · intro _
    rw [List.take_append_of_le_length hx]; exact ha.known hx

theorem depth_other (ha : At prefixes h m) (x : Bytes) (hx : x.length = 0 ∨ 5 ≤ m.length) :
    5 ≤ (m ++ x).length → ((m ++ x).drop 4).head? = some h.depth := by
  rcases hx with hx | hx
  · obtain rfl := List.length_eq_zero_iff.mp hx; rw [List.append_nil]; exact ha.depth
  · intro _
    rw [List.drop_append_of_le_length (by omega), List.head?_append_of_ne_nil]
    · exact ha.depth (by omega)
    · intro h; have := congrArg List.length h; simp at this; omega

theorem number_other (ha : At prefixes h m) (x : Bytes) (hx : x.length = 0 ∨ 13 ≤ m.length ∨ (m ++ x).length ≤ 9) :
    ∃ c0, h.childNumber = (((m ++ x).drop 9).take 4).foldl (fun (c : UInt32) (b : UInt8) => (c <<< 8) + b.toUInt32) c0 := by
  rcases hx with hx | hx | hx
  · obtain rfl := List.length_eq_zero_iff.mp hx; rw [List.append_nil]; exact ha.number
  · obtain ⟨c0, e⟩ := ha.number
    exact ⟨c0, by rw [List.drop_append_of_le_length (by omega), List.take_append_of_le_length (by simp; omega)]; exact e⟩
  · exact ⟨h.childNumber, by rw [List.drop_eq_nil_of_le hx]; rfl⟩

/-- The piece read for a part is empty or stays within the part. -/
theorem piece (m c : Bytes) {lo hi : Nat} (hm : lo ≤ m.length ∨ c = []) :
    (c.take (hi - m.length)).length = 0 ∨ lo ≤ m.length ∧ m.length < hi ∧ (m ++ c.take (hi - m.length)).length ≤ hi := by
  rcases hm with hm | rfl
  · by_cases h : m.length < hi
    · exact Or.inr ⟨hm, h, by simp; omega⟩
    · left; rw [show hi - m.length = 0 by omega]; simp
  · left; simp

theorem At.keep (ha : At prefixes h m) (x : Bytes) (hx : 45 ≤ m.length ∨ x.length = 0) : At prefixes h (m ++ x) :=
  ⟨ha.preLen, ha.fpLen, ha.ccLen, ha.pre.other _ (by omega), known_other ha _ (by omega), depth_other ha _ (by omega), ha.fp.other _ (by omega),
    number_other ha _ (by omega), ha.cc.other _ (by omega)⟩

theorem at_depth (c : Bytes) (ha : At prefixes h m) (hm : 4 ≤ m.length ∨ c = []) :
    At prefixes { h with depth := (c.take (5 - m.length)).headD h.depth } (m ++ c.take (5 - m.length)) := by
  have hp := piece m c (lo := 4) (hi := 5) hm
  refine ⟨ha.preLen, ha.fpLen, ha.ccLen, ha.pre.other _ (by omega), known_other ha _ (by omega), ?_, ha.fp.other _ (by omega), number_other ha _ (by omega), ha.cc.other _ (by omega)⟩
  rcases hp with hp | ⟨p1, p2, p3⟩
  · rw [List.length_eq_zero_iff.mp hp, List.append_nil]; exact ha.depth
  · intro h5
    rw [show 5 - m.length = 1 by omega] at *
    rw [List.drop_append_of_le_length p1, List.drop_eq_nil_of_le (as := m) (by omega), List.nil_append]
    cases c with
    | nil => simp at h5; omega
    | cons a c => simp

theorem at_fp (c : Bytes) (ha : At prefixes h m) (hm : 5 ≤ m.length ∨ c = []) :
    ∃ fp, fill h.fingerprint 5 m.length (c.take (9 - m.length)) = .ok fp ∧ At prefixes { h with fingerprint := fp } (m ++ c.take (9 - m.length)) := by
  have hp := piece m c (lo := 5) (hi := 9) hm
  obtain ⟨a, e1, e2, e3⟩ := fill_sec c ha.fp (by rw [ha.fpLen]) (by omega) hm
  exact ⟨a, e1, ha.preLen, by rw [e2, ha.fpLen], ha.ccLen, ha.pre.other _ (by omega), known_other ha _ (by omega), depth_other ha _ (by omega), e3,
    number_other ha _ (by omega), ha.cc.other _ (by omega)⟩

theorem at_number (c : Bytes) (ha : At prefixes h m) (hm : 9 ≤ m.length ∨ c = []) :
    At prefixes { h with childNumber := (c.take (13 - m.length)).foldl (fun (c : UInt32) (b : UInt8) => (c <<< 8) + b.toUInt32) h.childNumber }
      (m ++ c.take (13 - m.length)) := by
  have hp := piece m c (lo := 9) (hi := 13) hm
  refine ⟨ha.preLen, ha.fpLen, ha.ccLen, ha.pre.other _ (by omega), known_other ha _ (by omega), depth_other ha _ (by omega), ha.fp.other _ (by omega), ?_,
    ha.cc.other _ (by omega)⟩
  rcases hp with hp | ⟨p1, p2, p3⟩
  · rw [List.length_eq_zero_iff.mp hp, List.append_nil]; exact ha.number
  · obtain ⟨c0, e⟩ := ha.number
    refine ⟨c0, ?_⟩
    rw [List.take_of_length_le (by simp; omega)] at e
    dsimp only
    rw [List.drop_append_of_le_length p1, List.take_of_length_le (i := 4) (by simp at p3 ⊢; omega), List.foldl_append, ← e]

theorem at_cc (c : Bytes) (ha : At prefixes h m) (hm : 13 ≤ m.length ∨ c = []) :
    ∃ cc, fill h.chainCode 13 m.length (c.take (45 - m.length)) = .ok cc ∧ At prefixes { h with chainCode := cc } (m ++ c.take (45 - m.length)) := by
  have hp := piece m c (lo := 13) (hi := 45) hm
  obtain ⟨a, e1, e2, e3⟩ := fill_sec c ha.cc (by rw [ha.ccLen]) (by omega) hm
  exact ⟨a, e1, ha.preLen, ha.fpLen, by rw [e2, ha.ccLen], ha.pre.other _ (by omega), known_other ha _ (by omega), depth_other ha _ (by omega),
    ha.fp.other _ (by omega), number_other ha _ (by omega), e3⟩

/-- The byte between the chain code and the secret. -/
theorem marker_byte (m c : Bytes) :
    let x := m ++ c.take (45 - m.length)
    let c' := c.drop (45 - m.length)
    (c'.take (if x.length < 46 then 1 else 0) = c'.take (46 - x.length) ∧ c'.drop (if x.length < 46 then 1 else 0) = c'.drop (46 - x.length)) ∧
    ((c'.take (46 - x.length)).headD 0 ≠ 0 ↔ 46 ≤ (m ++ c).length ∧ m.length < 46 ∧ (m ++ c)[45]? ≠ some 0) := by
  dsimp only
  by_cases h46 : 46 ≤ m.length
  · rw [show 45 - m.length = 0 by omega]
    simp only [List.take_zero, List.append_nil, List.drop_zero]
    rw [if_neg (by omega), show 46 - m.length = 0 by omega]
    simp; omega
  · by_cases hM : 46 ≤ (m ++ c).length
    · have hx : (m ++ c.take (45 - m.length)).length = 45 := by simp at hM ⊢; omega
      rw [hx]
      have e : m ++ c = (m ++ c.take (45 - m.length)) ++ c.drop (45 - m.length) := by simp
      have hc : 0 < (c.drop (45 - m.length)).length := by simp at hM ⊢; omega
      refine ⟨by simp, ?_⟩
      rw [e, List.getElem?_append_right (by omega), hx]
      cases hd : c.drop (45 - m.length) with
      | nil => rw [hd] at hc; simp at hc
      | cons a t =>
        have h1 : 46 ≤ (m ++ c.take (45 - m.length) ++ a :: t).length := by rw [List.length_append, hx]; simp; omega
        have h2 : m.length < 46 := by omega
        simp only [h1, h2, true_and]
        simp
    · have hc : c.drop (45 - m.length) = [] := by
        apply List.drop_eq_nil_of_le
        simp at hM; omega
      rw [hc]
      simp at hM ⊢
      omega

theorem readRest_at (c : Bytes) (ha : At prefixes h m) (hm : 4 ≤ m.length ∨ c = []) :
    ∃ h', h.readRest m.length { bytes := c } = .ok (h', (m ++ c.take (45 - m.length)).length, { bytes := c.drop (45 - m.length) }) ∧
      At prefixes h' (m ++ c.take (45 - m.length)) := by
  have hd : c.take (if m.length < 5 then 1 else 0) = c.take (5 - m.length) ∧ c.drop (if m.length < 5 then 1 else 0) = c.drop (5 - m.length) := by
    rcases hm with hm | rfl
    · by_cases h5 : m.length < 5
      · rw [if_pos h5, show 5 - m.length = 1 by omega]; simp
      · rw [if_neg h5, show 5 - m.length = 0 by omega]; simp
    · simp
  obtain ⟨q1, q2, q3⟩ := take_chain m c (lo := 5) (hi := 9) (by omega)
  obtain ⟨r1, r2, r3⟩ := take_chain m c (lo := 9) (hi := 13) (by omega)
  obtain ⟨s1, s2, s3⟩ := take_chain m c (lo := 13) (hi := 45) (by omega)
  have a1 := at_depth c ha hm
  obtain ⟨fp, e2, a2⟩ := at_fp (c.drop (5 - m.length)) a1 q3
  rw [q1] at a2
  have a3 := at_number (c.drop (9 - m.length)) a2 r3
  rw [r1] at a3
  obtain ⟨cc, e4, a4⟩ := at_cc (c.drop (13 - m.length)) a3 s3
  rw [s1] at a4
  refine ⟨_, ?_, a4⟩
  unfold readRest
  rw [readN_plain, hd.1, hd.2]
  dsimp only
  rw [← List.length_append, readN_plain]
  dsimp only
  rw [e2, C.bind_ok, ← List.length_append, q1, q2, readN_plain]
  dsimp only
  rw [← List.length_append, r1, r2, readN_plain]
  dsimp only
  rw [e4, C.bind_ok, C.pure_eq, ← List.length_append, s1, s2]

end HDHead

end UB
