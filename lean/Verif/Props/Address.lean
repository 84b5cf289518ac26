import Verif.Props.Script
import Verif.Props.Segwit
import Verif.Lemmas.Base58Decode
import Verif.Lemmas.TxHash

/-
C23 (script to address and back) and C24 (scripts from untrusted address text).
-/

namespace UB
open Spec

/-- Base58Check text of a payload. -/
def Spec.checkedText (p : Bytes) : Bytes := base58Text (p ++ (Spec.hash256 p).take 4)

/-- The standard output script of a kind for a hash. -/
def Spec.legacyScript : ScriptType → Bytes → Bytes
  | .p2pkh, h => p2pkhScript h
  | .p2sh, h => p2shScript h
  | _, _ => []

/-- The version byte of a kind of legacy address on a network. -/
def Spec.legacyVersion (net : Network) : ScriptType → Option UInt8
  | .p2pkh => some net.p2pkh
  | .p2sh => some net.p2sh
  | _ => none

theorem doubleSha_at_once (m : Bytes) (h : m.length < 2 ^ 60) : doubleSha m = Spec.hash256 m := (C43_at_once m h).2.2.2

theorem b58_text_chars (a : Bytes) : ∀ c ∈ base58Text a, c ∈ base58.chars := by
  obtain ⟨ds, d1, d2, -⟩ := radixText_digits base58 good58 a
  rw [← radixText58, d1]
  intro c hc
  obtain ⟨d, hd, rfl⟩ := List.mem_map.mp hc
  rw [List.getD_eq_getElem _ _ (d2 d hd)]
  exact List.getElem_mem _

theorem cstr_text (t : Bytes) (n : Nat) (h : ∀ c ∈ t, c ≠ 0) : cstr (t ++ zeros n) = t := by
  unfold cstr
  rw [List.takeWhile_append_of_pos (by intro c hc; simpa using h c hc)]
  cases n with
  | zero => simp [zeros]
  | succ n => simp [zeros, List.replicate_succ]

theorem checked_length (p : Bytes) : (p ++ (Spec.hash256 p).take 4).length = p.length + 4 := by
  simp [hash256_length]

theorem checked_fits (p : Bytes) (hp : p.length = 21) : toBaseLength base58 (p ++ (Spec.hash256 p).take 4) ≤ 35 := by
  have h1 := countZeros_le (p ++ (Spec.hash256 p).take 4)
  have h2 := checked_length p
  unfold toBaseLength
  have e : base58.encNum = 183 := rfl
  have e' : base58.encDen = 134 := rfl
  rw [e, e']
  omega

theorem checkedText_le (p : Bytes) (hp : p.length = 21) : (checkedText p).length ≤ 35 :=
  Nat.le_trans (C04_toBase58Length_enough _) (checked_fits p hp)

theorem addressBase58_eq (buffer : Bytes) (v : UInt8) (h : Bytes) (hh : h.length = 20) (hz : buffer = zeros buffer.length)
    (hb : (checkedText (v :: h)).length ≤ buffer.length) :
    Script.addressBase58 buffer v h = .ok (checkedText (v :: h) ++ zeros (buffer.length - (checkedText (v :: h)).length),
      (checkedText (v :: h)).length) := by
  unfold Script.addressBase58 toBase58Check
  rw [doubleSha_at_once _ (by simp [hh])]
  have hfit := checked_fits (v :: h) (by simp [hh])
  rw [C04_toBase58_text _ (zeros 40) (by rw [length_zeros]; omega)]
  have hno : ∀ c ∈ checkedText (v :: h), c ≠ 0 := fun c hc => ((b58_idx c).1 (b58_text_chars _ c hc)).1
  have e : cstr (base58Text (v :: h ++ (Spec.hash256 (v :: h)).take 4) ++
      zeros ((zeros 40).length - (base58Text (v :: h ++ (Spec.hash256 (v :: h)).take 4)).length)) = checkedText (v :: h) :=
    cstr_text _ _ hno
  simp only [e]
  rw [if_neg (by omega)]
  rw [store_zero _ _ hb]
  simp only [C.bind_ok, C.pure_eq]
  rw [hz]
  simp [zeros]

theorem load_hash (d1 h d2 : Bytes) (k : Nat) (hk : d1.length = k) (hh : h.length = 20) : load (d1 ++ h ++ d2) k 20 = .ok h := by
  subst hk
  unfold load
  rw [if_pos (by simp; omega)]
  simp [hh, List.take_append_of_le_length]

/-- Address of a standard legacy script. -/
theorem address_legacy (sc : Script) (ty : ScriptType) (v : UInt8) (h buffer : Bytes) (net : Network) (hh : h.length = 20)
    (hv : legacyVersion net ty = some v) (hs : sc.Holds (legacyScript ty h)) (hb : 35 ≤ buffer.length) :
    sc.address buffer net = .ok (checkedText (v :: h) ++ zeros (buffer.length - (checkedText (v :: h)).length),
      (checkedText (v :: h)).length) := by
  have hl := checkedText_le (v :: h) (by simp [hh])
  unfold Script.address
  cases ty <;> simp only [legacyVersion, Option.some.injEq, reduceCtorEq] at hv
  · subst hv
    have ht := (C22_type_exact sc _ hs .p2pkh).2 ⟨h, hh, rfl⟩
    simp only [ht, if_true]
    rw [hs.2]
    have : load (legacyScript .p2pkh h) 3 20 = .ok h := load_hash [0x76, 0xa9, 20] h [0x88, 0xac] 3 rfl hh
    simp only [this, C.bind_ok]
    rw [addressBase58_eq _ _ h hh (by simp) (by rw [length_zeros]; omega), length_zeros]
  · subst hv
    have ht := (C22_type_exact sc _ hs .p2sh).2 ⟨h, hh, rfl⟩
    simp only [ht, if_true, reduceCtorEq, if_false]
    rw [hs.2]
    have : load (legacyScript .p2sh h) 2 20 = .ok h := load_hash [0xa9, 20] h [0x87] 2 rfl hh
    simp only [this, C.bind_ok]
    rw [addressBase58_eq _ _ h hh (by simp) (by rw [length_zeros]; omega), length_zeros]

/-! ### Back from the text -/

theorem addressNetwork_none (c : UInt8) (r : Bytes) (h1 : c ≠ 98) (h2 : c ≠ 116) : Script.addressNetwork (c :: r) = none := by
  simp [Script.addressNetwork, networks, mainnet, testnet, regtest, signet, List.isPrefixOf, Ne.symm h1, Ne.symm h2]

theorem clear_ok (sc : Script) (n : Nat) (a : Bytes) (h : n = a.length) : ({ sc with scriptLen := n, arr := a } : Script).Holds a :=
  ⟨h, rfl⟩

/-- A 21-byte payload, once decoded, becomes the script of its version. -/
theorem fromAddress_payload (sc : Script) (text : Bytes) (v : UInt8) (h : Bytes) (hh : h.length = 20) (hl : text.length ≤ 100)
    (hn : Script.addressNetwork text = none) (hd : fromBase58Check doubleSha text (zeros 21) = (21, v :: h)) :
    ∃ sc', sc.fromAddress text = .ok sc' ∧
      (Script.versionType v networks = .p2pkh → sc'.Holds (p2pkhScript h)) ∧
      (Script.versionType v networks = .p2sh → sc'.Holds (p2shScript h)) ∧
      (Script.versionType v networks ≠ .p2pkh → Script.versionType v networks ≠ .p2sh → sc' = sc.clear) := by
  unfold Script.fromAddress
  rw [if_neg (by omega)]
  simp only [hn, hd, ne_eq, not_true_eq_false, if_false, List.drop_succ_cons, List.drop_zero, List.getD_cons_zero]
  cases hv : Script.versionType v networks <;> simp only [C.pure_eq]
  all_goals refine ⟨_, rfl, ?_, ?_, ?_⟩
  all_goals simp only [reduceCtorEq, IsEmpty.forall_iff, forall_true_left, ne_eq, not_true_eq_false, not_false_eq_true, implies_true]
  · exact ⟨by simp [p2pkhScript, hh], rfl⟩
  · exact ⟨by simp [p2shScript, hh], rfl⟩

theorem fromAddress_refused (sc : Script) (text : Bytes) (hl : text.length ≤ 100)
    (hn : Script.addressNetwork text = none) (hd : (fromBase58Check doubleSha text (zeros 21)).1 ≠ 21) :
    sc.fromAddress text = .ok sc.clear := by
  unfold Script.fromAddress
  rw [if_neg (by omega)]
  simp only [hn]
  rw [if_pos hd]; rfl

/-- Decoding a Base58Check text of at least 33 characters. -/
theorem fromCheck_33 (p : Bytes) (hp : p.length = 21) (hl : 33 ≤ (checkedText p).length) :
    fromBase58Check doubleSha (checkedText p) (zeros 21) = (21, p) := by
  have h25 := checked_length p
  rw [hp] at h25
  have h := (C05_address_payload_iff (p ++ (Spec.hash256 p).take 4) (zeros 25) h25 (by simp)).2 hl
  unfold fromBase58Check
  simp only [length_zeros]
  rw [show checkedText p = base58Text (p ++ (Spec.hash256 p).take 4) from rfl, h]
  have e : (p ++ (Spec.hash256 p).take 4 ++ zeros ((zeros 25).length - 25)) = p ++ (Spec.hash256 p).take 4 := by simp [zeros]
  simp only [e]
  rw [if_neg (by norm_num)]
  have e1 : (p ++ (Spec.hash256 p).take 4).take (25 - 4) = p := by rw [List.take_left' (by omega)]
  have e2 : ((p ++ (Spec.hash256 p).take 4).drop (25 - 4)).take 4 = (Spec.hash256 p).take 4 := by
    rw [List.drop_left' (by omega)]; simp
  rw [e1, e2, doubleSha_at_once p (by omega)]
  simp [hp]

/-- A Base58Check text below 33 characters does not decode to 21 bytes. -/
theorem fromCheck_short (t : Bytes) (hl : t.length ≤ 32) : (fromBase58Check doubleSha t (zeros 21)).1 ≠ 21 := by
  have h := fromBase58_short t (zeros 25) hl
  unfold fromBase58Check
  simp only [length_zeros]
  split_ifs
  · simp
  · simp
  · simp; omega

/-- First character and length of the text of 25 bytes with a known version byte. -/
theorem text_first (v : UInt8) (r : Bytes) (hr : r.length = 24) (k lo hi : Nat)
    (h1 : lo * 58 ^ k ≤ v.toNat * 256 ^ 24) (h2 : (v.toNat + 1) * 256 ^ 24 ≤ (hi + 1) * 58 ^ k) (h3 : 0 < lo) (h4 : hi < 58) :
    ∃ d rest, base58Text (v :: r) = base58.chars.getD d 0 :: rest ∧ lo ≤ d ∧ d ≤ hi ∧ rest.length = k := by
  have hv : v ≠ 0 := by
    rintro rfl
    have : 0 < lo * 58 ^ k := by positivity
    simp at h1; omega
  have hz : countZeros (v :: r) = 0 := by simp [countZeros, hv]
  have hval := beValue_cons v r
  have hlt := beValue_lt r
  rw [hr] at hval hlt
  have b1 : lo * 58 ^ k ≤ beValue (v :: r) := by omega
  have b2 : beValue (v :: r) < (hi + 1) * 58 ^ k := by
    have : (v.toNat + 1) * 256 ^ 24 = v.toNat * 256 ^ 24 + 256 ^ 24 := by ring
    omega
  have c1 : 58 ^ k ≤ beValue (v :: r) := Nat.le_trans (Nat.le_mul_of_pos_left _ h3) b1
  have c2 : beValue (v :: r) < 58 ^ (k + 1) := by
    refine Nat.lt_of_lt_of_le b2 ?_
    rw [pow_succ, Nat.mul_comm]
    exact Nat.mul_le_mul_left _ (by omega)
  obtain ⟨f1, f2⟩ := b58Num_first _ k c1 c2
  have e : base58Text (v :: r) = b58Num (beValue (v :: r)) := by rw [base58Text_eq, hz]; simp
  rw [e]
  cases hn : b58Num (beValue (v :: r)) with
  | nil => rw [hn] at f2; simp at f2
  | cons c rest =>
    rw [hn] at f1 f2
    simp only [List.head?_cons, Option.some.injEq] at f1
    refine ⟨_, rest, by rw [f1], ?_, ?_, by simpa using f2⟩
    · exact (Nat.le_div_iff_mul_le (by positivity)).2 b1
    · have := (Nat.div_lt_iff_lt_mul (by positivity : 0 < 58 ^ k)).2 b2
      omega

/-- The texts of the non-zero version bytes: long enough, and not starting like a segwit prefix. -/
theorem text_known (v : UInt8) (hv : v = 0x05 ∨ v = 0x6F ∨ v = 0xC4) (r : Bytes) (hr : r.length = 24) :
    ∃ c rest, base58Text (v :: r) = c :: rest ∧ c ≠ 98 ∧ c ≠ 116 ∧ 33 ≤ rest.length := by
  have chars : ∀ d, 1 ≤ d → d ≤ 45 → (d ≤ 2 ∨ 44 ≤ d) → base58.chars.getD d 0 ≠ 98 ∧ base58.chars.getD d 0 ≠ 116 := by
    decide +kernel
  rcases hv with rfl | rfl | rfl
  · obtain ⟨d, rest, e1, e2, e3, e4⟩ := text_first 0x05 r hr 33 2 2 (by decide +kernel) (by decide +kernel) (by norm_num) (by norm_num)
    have := chars d (by omega) (by omega) (.inl (by omega))
    exact ⟨_, rest, e1, this.1, this.2, by omega⟩
  · obtain ⟨d, rest, e1, e2, e3, e4⟩ := text_first 0x6F r hr 33 44 45 (by decide +kernel) (by decide +kernel) (by norm_num) (by norm_num)
    have := chars d (by omega) (by omega) (.inr (by omega))
    exact ⟨_, rest, e1, this.1, this.2, by omega⟩
  · obtain ⟨d, rest, e1, e2, e3, e4⟩ := text_first 0xC4 r hr 34 1 1 (by decide +kernel) (by decide +kernel) (by norm_num) (by norm_num)
    have := chars d (by omega) (by omega) (.inl (by omega))
    exact ⟨_, rest, e1, this.1, this.2, by omega⟩

theorem version_known (net : Network) (hn : net ∈ networks) (ty : ScriptType) (v : UInt8) (hv : legacyVersion net ty = some v) :
    (ty = .p2pkh ∨ ty = .p2sh) ∧ Script.versionType v networks = ty ∧ (v = 0x05 ∨ v = 0x6F ∨ v = 0xC4 ∨ (v = 0 ∧ ty = .p2pkh)) := by
  simp only [networks, List.mem_cons, List.not_mem_nil, or_false] at hn
  rcases hn with rfl | rfl | rfl | rfl <;> cases ty <;> simp only [legacyVersion, Option.some.injEq, reduceCtorEq] at hv <;> subst hv <;>
    decide

/-- C23 for legacy scripts: P2SH on every network, P2PKH on every network but Mainnet. The address text is the Base58Check
text of version byte and hash, and building a script from it gives the script back. -/
theorem C23_legacy_roundtrip (sc sc0 : Script) (ty : ScriptType) (v : UInt8) (h buffer : Bytes) (net : Network) (hnet : net ∈ networks)
    (hv : legacyVersion net ty = some v) (hv0 : v ≠ 0) (hh : h.length = 20) (hs : sc.Holds (legacyScript ty h)) (hb : 35 ≤ buffer.length) :
    ∃ text, sc.address buffer net = .ok (text ++ zeros (buffer.length - text.length), text.length) ∧
      text = checkedText (v :: h) ∧ ∃ sc', sc0.fromAddress text = .ok sc' ∧ sc'.Holds (legacyScript ty h) := by
  refine ⟨_, address_legacy sc ty v h buffer net hh hv hs hb, rfl, ?_⟩
  obtain ⟨hty, hvt, hvv⟩ := version_known net hnet ty v hv
  have hvv' : v = 0x05 ∨ v = 0x6F ∨ v = 0xC4 := by
    rcases hvv with h | h | h | h
    · exact .inl h
    · exact .inr (.inl h)
    · exact .inr (.inr h)
    · exact absurd h.1 hv0
  obtain ⟨c, rest, e1, e2, e3, e4⟩ := text_known v hvv' (h ++ (Spec.hash256 (v :: h)).take 4) (by simp [hh, hash256_length])
  have et : checkedText (v :: h) = c :: rest := e1
  have hn : Script.addressNetwork (checkedText (v :: h)) = none := by rw [et]; exact addressNetwork_none c rest e2 e3
  have hle := checkedText_le (v :: h) (by simp [hh])
  obtain ⟨sc', g1, g2, g3, -⟩ := fromAddress_payload sc0 _ v h hh (by omega) hn
    (fromCheck_33 (v :: h) (by simp [hh]) (by rw [et]; simp; omega))
  refine ⟨sc', g1, ?_⟩
  rcases hty with rfl | rfl
  · exact g2 hvt
  · exact g3 hvt

/-- C23 for Mainnet P2PKH: the script comes back exactly when the text has at least 33 characters; otherwise the result is
an empty script. -/
theorem C23_p2pkh_mainnet_iff (sc sc0 : Script) (h buffer : Bytes) (hh : h.length = 20) (hs : sc.Holds (p2pkhScript h))
    (hb : 35 ≤ buffer.length) :
    ∃ text, sc.address buffer mainnet = .ok (text ++ zeros (buffer.length - text.length), text.length) ∧
      text = checkedText (0 :: h) ∧ ∃ sc', sc0.fromAddress text = .ok sc' ∧
        (33 ≤ text.length → sc'.Holds (p2pkhScript h)) ∧ (text.length < 33 → sc' = sc0.clear) := by
  refine ⟨_, address_legacy sc .p2pkh 0 h buffer mainnet hh rfl hs hb, rfl, ?_⟩
  have et : checkedText (0 :: h) = 49 :: (checkedText (0 :: h)).drop 1 := by
    unfold checkedText
    rw [base58Text_eq]
    simp [countZeros, List.replicate_succ]
  have hn : Script.addressNetwork (checkedText (0 :: h)) = none := by
    rw [et]; exact addressNetwork_none _ _ (by decide) (by decide)
  have hle := checkedText_le (0 :: h) (by simp [hh])
  by_cases hl : 33 ≤ (checkedText (0 :: h)).length
  · obtain ⟨sc', g1, g2, g3, -⟩ := fromAddress_payload sc0 _ 0 h hh (by omega) hn (fromCheck_33 (0 :: h) (by simp [hh]) hl)
    exact ⟨sc', g1, fun _ => g2 (by decide), fun h => by omega⟩
  · refine ⟨_, fromAddress_refused sc0 _ (by omega) hn (fromCheck_short _ (by omega)), fun h => absurd h hl, fun _ => rfl⟩

theorem countZeros_take (a b : Bytes) (h : a.head? ≠ some 0) (ha : a ≠ []) (z : Nat) : countZeros (zeros z ++ (a ++ b)) = z := by
  induction z with
  | zero =>
    cases a with
    | nil => exact absurd rfl ha
    | cons x a => simp at h; simp [zeros, countZeros, h]
  | succ z ih => rw [zeros_succ, List.cons_append, countZeros]; simp [ih]

theorem b58Num_length (v k : Nat) (h : 58 ^ k ≤ v) : k + 1 ≤ (b58Num v).length := by
  have l2 : k < (Nat.digits 58 v).length := (Nat.lt_digits_length_iff (by norm_num) v).mpr h
  simpa [b58Num, b58] using l2

/-- C23 for Mainnet P2PKH: the round trip holds for every hash that does not start with two zero bytes. -/
theorem C23_p2pkh_mainnet_partial (sc sc0 : Script) (h buffer : Bytes) (hh : h.length = 20) (hs : sc.Holds (p2pkhScript h))
    (hb : 35 ≤ buffer.length) (hz : h.take 2 ≠ [0, 0]) :
    ∃ text, sc.address buffer mainnet = .ok (text ++ zeros (buffer.length - text.length), text.length) ∧
      text = checkedText (0 :: h) ∧ ∃ sc', sc0.fromAddress text = .ok sc' ∧ sc'.Holds (p2pkhScript h) := by
  obtain ⟨text, e1, e2, sc', e3, e4, -⟩ := C23_p2pkh_mainnet_iff sc sc0 h buffer hh hs hb
  refine ⟨text, e1, e2, sc', e3, e4 ?_⟩
  rw [e2]
  unfold checkedText
  rw [base58Text_eq, List.length_append, List.length_replicate]
  obtain ⟨a, b, r, rfl⟩ : ∃ a b r, h = a :: b :: r := by
    match h, hh with
    | a :: b :: r, _ => exact ⟨a, b, r, rfl⟩
  simp only [List.length_cons] at hh
  have hck : ((Spec.hash256 (0 :: a :: b :: r)).take 4).length = 4 := by simp [hash256_length]
  generalize (Spec.hash256 (0 :: a :: b :: r)).take 4 = ck at hck
  by_cases ha : a = 0
  · have hbn : b ≠ 0 := by rintro rfl; subst ha; exact hz rfl
    have hb1 : 1 ≤ b.toNat := by
      rcases Nat.eq_zero_or_pos b.toNat with h | h
      · exact absurd (UInt8.toNat_inj.mp (by simpa using h)) hbn
      · exact h
    subst ha
    have hzc : countZeros ((0 :: 0 :: b :: r) ++ ck) = 2 := by simp [countZeros, hbn]
    have hv : 58 ^ 30 ≤ beValue ((0 :: 0 :: b :: r) ++ ck) := by
      simp only [List.cons_append, beValue_cons, List.length_append, hck]
      have : 1 * 256 ^ (r.length + 4) ≤ b.toNat * 256 ^ (r.length + 4) := Nat.mul_le_mul_right _ hb1
      have e : r.length + 4 = 22 := by omega
      rw [e] at this ⊢
      have h58 : 58 ^ 30 ≤ 1 * 256 ^ 22 := by norm_num
      omega
    have := b58Num_length _ _ hv
    omega
  · have ha1 : 1 ≤ a.toNat := by
      rcases Nat.eq_zero_or_pos a.toNat with h | h
      · exact absurd (UInt8.toNat_inj.mp (by simpa using h)) ha
      · exact h
    have hzc : countZeros ((0 :: a :: b :: r) ++ ck) = 1 := by simp [countZeros, ha]
    have hv : 58 ^ 31 ≤ beValue ((0 :: a :: b :: r) ++ ck) := by
      simp only [List.cons_append, beValue_cons, List.length_append, List.length_cons, hck]
      have : 1 * 256 ^ (r.length + 4 + 1) ≤ a.toNat * 256 ^ (r.length + 4 + 1) := Nat.mul_le_mul_right _ ha1
      have e : r.length + 4 + 1 = 23 := by omega
      rw [e] at this ⊢
      have h58 : 58 ^ 31 ≤ 1 * 256 ^ 23 := by norm_num
      exact Nat.le_trans h58 (Nat.le_trans this (Nat.le_trans (Nat.le_add_right _ _) (Nat.le_add_left _ _)))
    have := b58Num_length _ _ hv
    omega

/-! ### Witness programs -/

/-- The output script of a witness version and program (BIP 141). -/
def Spec.witnessScript (v : UInt8) (prog : Bytes) : Bytes := v :: UInt8.ofNat prog.length :: prog

theorem addressNetwork_some {text : Bytes} {net : Network} (h : Script.addressNetwork text = some net) :
    (net = mainnet ∨ net = testnet) ∧ ∃ r, text = net.bech32 ++ r := by
  unfold Script.addressNetwork at h
  have hp := List.find?_some h
  have hpre : net.bech32 <+: text := List.isPrefixOf_iff_prefix.mp hp
  obtain ⟨r, hr⟩ := hpre
  refine ⟨?_, r, hr.symm⟩
  have hm := List.mem_of_find?_eq_some h
  simp only [networks, List.mem_cons, List.not_mem_nil, or_false] at hm
  rcases hm with rfl | rfl | rfl | rfl
  · exact .inl rfl
  · exact .inr rfl
  · exfalso
    rw [← hr] at h
    simp [networks, mainnet, regtest, testnet, List.isPrefixOf] at h
  · exact .inr rfl

theorem addressNetwork_bc (r : Bytes) : Script.addressNetwork (98 :: 99 :: r) = some mainnet := by
  simp [Script.addressNetwork, networks, mainnet, List.isPrefixOf]

theorem addressNetwork_tb (r : Bytes) : Script.addressNetwork (116 :: 98 :: r) = some testnet := by
  simp [Script.addressNetwork, networks, mainnet, testnet, List.isPrefixOf]

theorem script_clear_holds {sc : Script} {d : Bytes} (h : sc.Holds d) : sc.clear.Holds [] := by
  unfold Script.clear
  split_ifs with hc
  · exact ⟨rfl, rfl⟩
  · have h1 := h.1
    have h2 : d = [] := List.length_eq_zero_iff.mp (by omega)
    subst h2; exact h

/-- What `fromAddress` does with a text starting with a segwit prefix, provided the program fits 32 bytes. -/
theorem fromAddress_segwit (sc : Script) (text : Bytes) (net : Network) (hn : Script.addressNetwork text = some net) 
    (hl : text.length ≤ 84)
    (hb : (text.length - (net.bech32.length + 8)) * 5 / 8 ≤ 32 ∨ ¬ ∃ d, Bech32 text net.bech32 d) :
    (∃ v prog, SegwitAddress text net.bech32 v prog ∧ ∃ sc', sc.fromAddress text = .ok sc' ∧
      sc'.Holds (witnessScript (UInt8.ofNat v) prog)) ∨
    ((¬ ∃ v prog, SegwitAddress text net.bech32 v prog) ∧ sc.fromAddress text = .ok sc.clear) := by
  obtain ⟨r, e1, e2, e3⟩ := segwitDecode_exact 0 (zeros 32) 0 net.bech32 text (.inr (by simpa using hb)) (.inl hl)
  by_cases hS : ∃ v prog, SegwitAddress text net.bech32 v prog
  · left
    obtain ⟨v, prog, hS⟩ := hS
    refine ⟨v, prog, hS, ?_⟩
    obtain ⟨g1, g2, g3⟩ := e3 v prog hS
    unfold Script.fromAddress
    rw [if_neg (by omega)]
    simp only [hn, e1, C.bind_ok, e2.mpr ⟨v, prog, hS⟩, not_true_eq_false, if_false, C.pure_eq]
    refine ⟨_, rfl, ?_, ?_⟩
    · simp [witnessScript, g2]
    · rw [g2] at g3; simp only [g2, g3, g1, byte_int v hS.1]; rfl
  · right
    refine ⟨hS, ?_⟩
    unfold Script.fromAddress
    rw [if_neg (by omega)]
    have : r.ret = false := by
      cases h : r.ret with
      | false => rfl
      | true => exact absurd (e2.mp h) hS
    simp only [hn, e1, C.bind_ok, this, Bool.false_eq_true, not_false_eq_true, if_true, C.pure_eq]

theorem bech32_no_nul {text hrp data : Bytes} (hB : Bech32 text hrp data) : ∀ c ∈ text, c ≠ 0 := by
  rintro c hc rfl
  obtain ⟨s, -, h2, h3, -⟩ := hB.form
  have h : toLower 0 ∈ text.map toLower := List.mem_map_of_mem hc
  rw [h3, List.mem_append, List.mem_append] at h
  rcases h with (h | h) | h
  · exact absurd (hB.hrp_range _ h).1 (by decide)
  · simp at h; exact absurd h (by decide)
  · obtain ⟨v, hv, e⟩ := List.mem_map.mp h
    have hv32 : v < 32 := by
      rcases List.mem_append.mp hv with hv | hv
      · exact hB.values v hv
      · exact h2 v hv
    revert e hv32
    clear hv
    revert v; apply forall_byte; decide +kernel

/-- Address of a version 0 witness script. -/
theorem address_witness (sc : Script) (prog buffer : Bytes) (net : Network) (hnet : net ∈ networks)
    (hp : prog.length = 20 ∨ prog.length = 32) (hs : sc.Holds (witnessScript 0 prog)) (hb : 64 ≤ buffer.length) :
    ∃ text, sc.address buffer net = .ok (text ++ zeros (buffer.length - text.length), text.length) ∧
      SegwitAddress text net.bech32 0 prog ∧ text.length = net.bech32.length + 8 + (prog.length * 8 + 4) / 5 ∧
      (∃ r, text = net.bech32 ++ 0x31 :: r) ∧ text.map toLower = text := by
  have hhrp : net.bech32 ≠ [] ∧ GoodHrp net.bech32 ∧ net.bech32.length ≤ 4 := by
    simp only [networks, List.mem_cons, List.not_mem_nil, or_false] at hnet
    rcases hnet with rfl | rfl | rfl | rfl <;> decide
  obtain ⟨h0, h1, h2⟩ := hhrp
  -- a 76-byte buffer: enough for these programs
  have hty : sc.type = .p2wpkh ∨ sc.type = .p2wsh := by
    rcases hp with hp | hp
    · left
      exact (C22_type_exact sc _ hs .p2wpkh).2 ⟨prog, hp, by rw [witnessScript, hp]; rfl⟩
    · right
      exact (C22_type_exact sc _ hs .p2wsh).2 ⟨prog, hp, by rw [witnessScript, hp]; rfl⟩
  have hld : load sc.arr 2 (sc.arr.getD 1 0).toNat = .ok prog := by
    rw [hs.2]
    have : (UInt8.ofNat prog.length).toNat = prog.length := by
      rw [UInt8.toNat_ofNat', Nat.mod_eq_of_lt (by omega)]
    simp only [witnessScript, List.getD_cons_succ, List.getD_cons_zero, this]
    unfold load
    rw [if_pos (by simp; omega)]
    simp
  obtain ⟨text, g1, g2, g3, g4, g5⟩ : ∃ text, segwitAddrEncode (zeros 76) net.bech32 0 prog = .ok (true, text ++ 0 :: (zeros 76).drop (text.length + 1)) ∧
      SegwitAddress text net.bech32 0 prog ∧ text.length = net.bech32.length + 8 + (prog.length * 8 + 4) / 5 ∧
      (∃ r, text = net.bech32 ++ 0x31 :: r) ∧ text.map toLower = text :=
    segwitEncode_form (zeros 76) net.bech32 0 prog h0 h1 (by omega) ⟨by omega, by omega, fun _ => hp⟩ (by omega) (by rw [length_zeros]; omega)
  refine ⟨text, ?_, g2, g3, g4, g5⟩
  have h76 : (text ++ 0 :: (zeros 76).drop (text.length + 1)) = text ++ zeros (76 - text.length) := by
    have : zeros (76 - text.length) = 0 :: (zeros 76).drop (text.length + 1) := by
      rw [show 76 - text.length = (76 - (text.length + 1)) + 1 by omega]
      unfold zeros
      rw [List.drop_replicate, List.replicate_succ]
    rw [this]
  have hno : ∀ c ∈ text, c ≠ 0 := by
    obtain ⟨h, d, hB⟩ := segwit_bech32 g2
    exact bech32_no_nul hB
  have hz0 : (sc.arr.getD 0 0).toNat = 0 := by rw [hs.2]; rfl
  unfold Script.address
  have hn1 : sc.type ≠ .p2pkh := by rcases hty with h | h <;> rw [h] <;> simp
  have hn2 : sc.type ≠ .p2sh := by rcases hty with h | h <;> rw [h] <;> simp
  rw [if_neg hn1, if_neg hn2, if_pos hty]
  have g1' : segwitAddrEncode (zeros 76) net.bech32 ((0 : Nat) : Int) prog = .ok (true, text ++ 0 :: (zeros 76).drop (text.length + 1)) := g1
  simp only [hld, C.bind_ok, hz0, g1', h76, cstr_text _ _ hno, length_zeros]
  rw [if_neg (by rcases hp with hp | hp <;> rw [hp] at g3 <;> omega), store_zero _ _ (by rw [length_zeros]; rcases hp with hp | hp <;> rw [hp] at g3 <;> omega)]
  simp [zeros]

/-- C23 for P2WPKH and P2WSH on Mainnet, Testnet and Signet. -/
theorem C23_witness_roundtrip (sc sc0 : Script) (prog buffer : Bytes) (net : Network) (hnet : net ∈ networks)
    (hreg : net.bech32 ≠ regtest.bech32) (hp : prog.length = 20 ∨ prog.length = 32) (hs : sc.Holds (witnessScript 0 prog))
    (hb : 64 ≤ buffer.length) :
    ∃ text, sc.address buffer net = .ok (text ++ zeros (buffer.length - text.length), text.length) ∧
      SegwitAddress text net.bech32 0 prog ∧ ∃ sc', sc0.fromAddress text = .ok sc' ∧ sc'.Holds (witnessScript 0 prog) := by
  obtain ⟨text, e1, e2, e3, ⟨r, e4⟩, -⟩ := address_witness sc prog buffer net hnet hp hs hb
  refine ⟨text, e1, e2, ?_⟩
  have hl2 : net.bech32.length = 2 ∧ ∃ net', Script.addressNetwork text = some net' ∧ net'.bech32 = net.bech32 := by
    rw [e4]
    simp only [networks, List.mem_cons, List.not_mem_nil, or_false] at hnet
    rcases hnet with rfl | rfl | rfl | rfl
    · exact ⟨rfl, mainnet, addressNetwork_bc _, rfl⟩
    · exact ⟨rfl, testnet, addressNetwork_tb _, rfl⟩
    · exact absurd rfl hreg
    · exact ⟨rfl, testnet, addressNetwork_tb _, rfl⟩
  obtain ⟨h2, net', hn, heq⟩ := hl2
  rw [← heq] at e2
  rcases fromAddress_segwit sc0 text net' hn (by omega) (.inl (by rw [heq]; omega)) with ⟨v, prog', f1, f2⟩ | ⟨f1, -⟩
  · have : v = 0 ∧ prog' = prog := by
      obtain ⟨r, -, -, g⟩ := segwitDecode_exact 0 (zeros 40) 0 net'.bech32 text (.inl (by simp)) (.inl (by omega))
      have g1 := g _ _ f1
      have g2 := g _ _ e2
      refine ⟨?_, g1.2.2.symm.trans g2.2.2⟩
      have := g1.1.symm.trans g2.1
      omega
    obtain ⟨rfl, rfl⟩ := this
    exact f2
  · exact absurd ⟨0, prog, e2⟩ f1

/-- C23 fails for witness scripts on Regtest: the address starts with "bc", is decoded with the prefix of Mainnet and
refused. -/
theorem C23_regtest_wrong (sc sc0 : Script) (prog buffer : Bytes) (hp : prog.length = 20 ∨ prog.length = 32)
    (hs : sc.Holds (witnessScript 0 prog)) (hb : 64 ≤ buffer.length) :
    ∃ text, sc.address buffer regtest = .ok (text ++ zeros (buffer.length - text.length), text.length) ∧
      SegwitAddress text regtest.bech32 0 prog ∧ sc0.fromAddress text = .ok sc0.clear := by
  obtain ⟨text, e1, e2, e3, ⟨r, e4⟩, -⟩ := address_witness sc prog buffer regtest (by simp [networks]) hp hs hb
  refine ⟨text, e1, e2, ?_⟩
  have hl4 : regtest.bech32.length = 4 := rfl
  have hn : Script.addressNetwork text = some mainnet := by rw [e4]; exact addressNetwork_bc _
  have hno : ¬ ∃ d, Bech32 text mainnet.bech32 d := by
    rintro ⟨d, hB⟩
    obtain ⟨-, -, d', hB', -⟩ := e2
    exact absurd (bech32_unique hB hB').1 (by decide)
  rcases fromAddress_segwit sc0 text mainnet hn (by omega) (.inr hno) with ⟨v, prog', ⟨-, -, d, hB, -⟩, -⟩ | ⟨-, f2⟩
  · exact absurd ⟨_, hB⟩ hno
  · exact f2

/-! ### Untrusted text -/

/-- The part of a text before the first character outside the Base58 alphabet. -/
def Spec.base58Part (text : Bytes) : Bytes := text.takeWhile (· ∈ base58.chars)

theorem base58Part_split (text : Bytes) (h0 : 0 ∉ text) : ∃ rest, text = base58Part text ++ rest ∧ (∀ c ∈ base58Part text, c ∈ base58.chars) ∧
    ∀ c, rest.head? = some c → c ∉ base58.chars ∧ c ≠ 0 := by
  refine ⟨text.dropWhile (· ∈ base58.chars), (List.takeWhile_append_dropWhile).symm, ?_, ?_⟩
  · intro c hc
    have h := List.all_takeWhile (p := fun c => decide (c ∈ base58.chars)) (l := text)
    rw [List.all_eq_true] at h
    simpa using h c hc
  · intro c hc
    refine ⟨?_, ?_⟩
    · have := List.head?_dropWhile_not (· ∈ base58.chars) text
      rw [hc] at this
      simpa using this
    · rintro rfl
      have hm := List.mem_of_mem_head? hc
      exact h0 (List.dropWhile_subset _ hm)

theorem versionType_cases (v : UInt8) :
    (∃ net ∈ networks, ∃ ty, legacyVersion net ty = some v ∧ Script.versionType v networks = ty ∧ (ty = .p2pkh ∨ ty = .p2sh)) ∨
    (Script.versionType v networks ≠ .p2pkh ∧ Script.versionType v networks ≠ .p2sh) := by
  have h : v = 0 ∨ v = 5 ∨ v = 0x6F ∨ v = 0xC4 ∨ Script.versionType v networks = .unknown := by
    revert v; apply forall_byte; decide +kernel
  rcases h with rfl | rfl | rfl | rfl | h
  · exact .inl ⟨mainnet, by simp [networks], .p2pkh, rfl, by decide, .inl rfl⟩
  · exact .inl ⟨mainnet, by simp [networks], .p2sh, rfl, by decide, .inr rfl⟩
  · exact .inl ⟨testnet, by simp [networks], .p2pkh, rfl, by decide, .inl rfl⟩
  · exact .inl ⟨testnet, by simp [networks], .p2sh, rfl, by decide, .inr rfl⟩
  · rw [h]; simp

/-- What `fromAddress` accepts as a legacy address. -/
theorem fromAddress_legacy (sc : Script) (text : Bytes) (h0 : 0 ∉ text) (hl : text.length ≤ 100) (hn : Script.addressNetwork text = none)
    (hw : ∃ d, sc.Holds d) :
    ∃ sc', sc.fromAddress text = .ok sc' ∧ (sc'.Holds [] ∨ ∃ net ∈ networks, ∃ ty v h, legacyVersion net ty = some v ∧ h.length = 20 ∧
      sc'.Holds (legacyScript ty h) ∧ fromBase58Check doubleSha text (zeros 21) = (21, v :: h) ∧
      ((base58Part text).length ≤ 35 → (base58Part text).dropWhile (· == 49) = (checkedText (v :: h)).dropWhile (· == 49)) ∧
      ((base58Part text).head? ≠ some 49 → base58Part text = checkedText (v :: h))) := by
  obtain ⟨d, hd⟩ := hw
  by_cases h21 : (fromBase58Check doubleSha text (zeros 21)).1 = 21
  · obtain ⟨p, g1, g2, g3⟩ := C06_accept_sound doubleSha text (zeros 21) (by rw [h21]; decide)
    rw [g3] at h21
    simp only [length_zeros] at g1
    have hpl : p.length = 21 := h21
    obtain ⟨v, h, rfl⟩ : ∃ v h, p = v :: h := by
      cases p with
      | nil => simp at hpl
      | cons v h => exact ⟨v, h, rfl⟩
    have hh : h.length = 20 := by simpa using hpl
    have g3' : fromBase58Check doubleSha text (zeros 21) = (21, v :: h) := by
      rw [g3, hpl]; simp [zeros]
    obtain ⟨sc', f1, f2, f3, f4⟩ := fromAddress_payload sc text v h hh hl hn g3'
    refine ⟨sc', f1, ?_⟩
    have hty : (∃ net ∈ networks, ∃ ty, legacyVersion net ty = some v ∧ Script.versionType v networks = ty ∧ (ty = .p2pkh ∨ ty = .p2sh)) ∨
        (Script.versionType v networks ≠ .p2pkh ∧ Script.versionType v networks ≠ .p2sh) := by
      exact versionType_cases v
    rcases hty with ⟨net, hnet, ty, t1, t2, t3⟩ | ⟨t1, t2⟩
    · right
      refine ⟨net, hnet, ty, v, h, t1, hh, ?_, g3', ?_⟩
      · rcases t3 with rfl | rfl
        · exact f2 t2
        · exact f3 t2
      · obtain ⟨rest, s1, s2, s3⟩ := base58Part_split text h0
        rw [doubleSha_at_once _ (by omega), hpl] at g1
        have hck := checked_length (v :: h)
        rw [hpl] at hck
        have g1' : ∃ r, fromBase58 (base58Part text ++ rest) (zeros 25) =
            ((v :: h ++ (Spec.hash256 (v :: h)).take 4).length, (v :: h ++ (Spec.hash256 (v :: h)).take 4) ++ r) := by
          rw [hck, ← s1]; exact ⟨_, g1⟩
        have hlen : (base58Part text).length ≤ 100 := by
          have := congrArg List.length s1
          rw [List.length_append] at this
          omega
        refine ⟨fun h35 => ?_, fun h49 => ?_⟩
        · exact fromBase58_value_25 _ _ (zeros 25) rest s2 h35 hck s3 g1'
        · exact fromBase58_sound_nonzero _ _ (zeros 25) rest s2 (by omega) h49 (by simp) s3 g1'
    · left
      rw [f4 t1 t2]
      exact script_clear_holds hd
  · refine ⟨_, fromAddress_refused sc text hl hn h21, .inl (script_clear_holds hd)⟩

theorem lower_of_prefix {text hrp data : Bytes} (hB : Bech32 text hrp data) (hp : hasLower text) : text.map toLower = text := by
  have hu : ¬ hasUpper text := fun h => hB.one_case ⟨h, hp⟩
  conv => rhs; rw [← List.map_id text]
  apply List.map_congr_left
  intro c hc
  unfold toLower
  rw [if_neg (fun h => hu ⟨c, hc, h⟩)]
  rfl

/-- C24: texts of at most 62 characters, and longer texts that do not start with "bc" or "tb": no access outside the
buffers, and the script is empty; or it is a version 0 witness script and its address is the text; or it is the wrong
script of a witness address of version 1 to 16 (`C24_version_wrong`); or it is a legacy script and the Base58 part of the
text (what follows is ignored, `C24_garbage_ignored`) is the script's address, exactly if it does not start with '1', up to
the number of leading '1's if it has at most 35 characters.
Missing: longer texts starting with "bc" or "tb", where the code overruns its buffers (`C24_long_program_overruns`), and
longer texts starting with '1' (`C24_another_text_accepted`). -/
theorem C24_from_address_partial (sc : Script) (text : Bytes) (h0 : 0 ∉ text) (hw : ∃ d, sc.Holds d)
    (hl : text.length ≤ 62 ∨ ¬ ([98, 99] <+: text ∨ [116, 98] <+: text)) :
    ∃ sc', sc.fromAddress text = .ok sc' ∧
      (sc'.Holds [] ∨
       (∃ net ∈ networks, ∃ v prog, v ≤ 16 ∧ SegwitAddress text net.bech32 v prog ∧ sc'.Holds (witnessScript (UInt8.ofNat v) prog) ∧
          (v = 0 → ∀ buffer : Bytes, 64 ≤ buffer.length →
            sc'.address buffer net = .ok (text ++ zeros (buffer.length - text.length), text.length))) ∨
       (∃ net ∈ networks, ∃ ty h, h.length = 20 ∧ sc'.Holds (legacyScript ty h) ∧ ∃ atext,
          (∀ buffer : Bytes, 35 ≤ buffer.length →
            sc'.address buffer net = .ok (atext ++ zeros (buffer.length - atext.length), atext.length)) ∧
          ((base58Part text).length ≤ 35 → (base58Part text).dropWhile (· == 49) = atext.dropWhile (· == 49)) ∧
          ((base58Part text).head? ≠ some 49 → base58Part text = atext))) := by
  by_cases h100 : text.length > 100
  · obtain ⟨d, hd⟩ := hw
    refine ⟨sc.clear, ?_, .inl (script_clear_holds hd)⟩
    unfold Script.fromAddress
    rw [if_pos h100]; rfl
  cases hn : Script.addressNetwork text with
  | none =>
    obtain ⟨sc', e1, e2⟩ := fromAddress_legacy sc text h0 (by omega) hn hw
    refine ⟨sc', e1, ?_⟩
    rcases e2 with e2 | ⟨net, hnet, ty, v, h, f1, f2, f3, -, f4, f5⟩
    · exact .inl e2
    · exact .inr (.inr ⟨net, hnet, ty, h, f2, f3, checkedText (v :: h), fun buffer hb => address_legacy sc' ty v h buffer net f2 f1 f3 hb, f4, f5⟩)
  | some net =>
    obtain ⟨hm, r, hr⟩ := addressNetwork_some hn
    have h62 : text.length ≤ 62 := by
      rcases hl with hl | hl
      · exact hl
      · exfalso
        apply hl
        rcases hm with rfl | rfl
        · exact .inl ⟨r, hr.symm⟩
        · exact .inr ⟨r, hr.symm⟩
    have hnet : net ∈ networks ∧ net.bech32.length = 2 ∧ hasLower text := by
      rw [hr]
      rcases hm with rfl | rfl
      · exact ⟨by simp [networks], rfl, 98, by simp [mainnet], by decide⟩
      · exact ⟨by simp [networks], rfl, 116, by simp [testnet], by decide⟩
    obtain ⟨hnet, hl2, hlow⟩ := hnet
    rcases fromAddress_segwit sc text net hn (by omega) (.inl (by rw [hl2]; omega)) with ⟨v, prog, f1, sc', f2, f3⟩ | ⟨-, f2⟩
    · refine ⟨sc', f2, .inr (.inl ⟨net, hnet, v, prog, f1.1, f1, f3, ?_⟩)⟩
      rintro rfl buffer hb
      obtain ⟨t, a1, a2, -, -, a5⟩ := address_witness sc' prog buffer net hnet (f1.2.1.2.2 rfl) f3 hb
      have hu := segwit_text_unique f1 a2
      obtain ⟨h, d, hB⟩ := segwit_bech32 f1
      rw [lower_of_prefix hB hlow, a5] at hu
      rw [hu]; exact a1
    · obtain ⟨d, hd⟩ := hw
      exact ⟨_, f2, .inl (script_clear_holds hd)⟩

/-- Characters after the Base58 part of a text are ignored. -/
theorem C24_garbage_ignored (sc : Script) (t rest : Bytes) (ht : ∀ c ∈ t, c ∈ base58.chars)
    (hr : ∀ c, rest.head? = some c → c ∉ base58.chars ∧ c ≠ 0) (hl : (t ++ rest).length ≤ 100)
    (hn : Script.addressNetwork (t ++ rest) = none) :
    sc.fromAddress (t ++ rest) = sc.fromAddress t := by
  have hn' : Script.addressNetwork t = none := by
    unfold Script.addressNetwork at hn ⊢
    rw [List.find?_eq_none] at hn ⊢
    intro n hm hp
    apply hn n hm
    rw [List.isPrefixOf_iff_prefix] at hp ⊢
    exact hp.trans (List.prefix_append _ _)
  have e : fromBase58Check doubleSha (t ++ rest) (zeros 21) = fromBase58Check doubleSha t (zeros 21) := by
    have e' : fromBase58 (t ++ rest) (zeros 25) = fromBase58 t (zeros 25) := by
      have h1 : ∀ c ∈ t, (strchrIdx base58.chars c).isSome = true := fun c hc => ((b58_idx c).1 (ht c hc)).2
      have h2 : ∀ c, rest.head? = some c → (strchrIdx base58.chars c).isSome = false := by
        intro c hc
        obtain ⟨g1, g2⟩ := hr c hc
        cases h : (strchrIdx base58.chars c).isSome with
        | false => rfl
        | true => exact absurd ((b58_idx c).2 ⟨g2, h⟩) g1
      have t1 := truncAlphabet_all base58 t rest h1 h2
      have t2 := truncAlphabet_all base58 t [] h1 (by simp)
      rw [List.append_nil] at t2
      unfold fromBase58 fromBase fromBaseLength
      rw [t1, t2]
    unfold fromBase58Check
    simp only [length_zeros]
    rw [e']
  unfold Script.fromAddress
  rw [List.length_append] at hl
  rw [if_neg (by rw [List.length_append]; omega), if_neg (by omega)]
  simp only [hn, hn', e]

/-- A second text, of 38 characters, that is not the address of anything, is accepted in place of the address of a Mainnet
P2PKH script (for every hash whose first byte is not zero). -/
theorem C24_another_text_accepted (sc : Script) (h : Bytes) (hh : h.length = 20) (hz : h.head? ≠ some 0) :
    ∃ text sc', text.length = 38 ∧ text ≠ checkedText (0 :: h) ∧ sc.fromAddress text = .ok sc' ∧ sc'.Holds (p2pkhScript h) := by
  have hck := checked_length (0 :: h)
  have hv0 : beValue ((0 : UInt8) :: h ++ (Spec.hash256 (0 :: h)).take 4) < 256 ^ 24 := by
    rw [List.cons_append, beValue_cons]
    have := beValue_lt (h ++ (Spec.hash256 (0 :: h)).take 4)
    have hl : (h ++ (Spec.hash256 (0 :: h)).take 4).length = 24 := by
      rw [List.cons_append, List.length_cons] at hck; simp [hh] at hck ⊢; omega
    rw [hl] at this
    simpa using this
  obtain ⟨x, xs, rfl⟩ : ∃ x xs, h = x :: xs := by
    cases h with
    | nil => simp at hh
    | cons x xs => exact ⟨x, xs, rfl⟩
  have hx : x ≠ 0 := by simpa using hz
  generalize hp : ((0 : UInt8) :: x :: xs ++ (Spec.hash256 (0 :: x :: xs)).take 4) = p at hck hv0
  have hpl : p.length = 25 := by rw [hck]; simp [hh]
  obtain ⟨N, hN⟩ : ∃ N, N = 256 ^ 27 + beValue p := ⟨_, rfl⟩
  have hnum : (b58Num N).length = 37 := by
    have h58 : 58 ^ 36 ≤ 256 ^ 27 := by norm_num
    have h58' : 256 ^ 27 + 256 ^ 24 ≤ 58 ^ 37 := by norm_num
    exact (b58Num_first _ 36 (by omega) (by omega)).2
  have hds : (b58 (0 :: (Nat.digits 58 N).reverse)) = 49 :: b58Num N := rfl
  have hdl : (Nat.digits 58 N).length = 37 := by simpa [b58Num, b58] using hnum
  have hlt : ∀ d ∈ (0 : Nat) :: (Nat.digits 58 N).reverse, d < 58 := by
    intro d hd
    rcases List.mem_cons.mp hd with rfl | hd
    · norm_num
    · exact Nat.digits_lt_base (by norm_num) (List.mem_reverse.mp hd)
  have htl : (49 :: b58Num N).length = 38 := by simp [hnum]
  obtain ⟨tmp, e1, e2, e3⟩ := fromBase58_digits _ hlt (by simp [hdl]) [] (zeros 25) (by simp)
  have hval : digitsValue 58 ((0 : Nat) :: (Nat.digits 58 N).reverse) = N := by
    have := digitsValue_zeros_append 1 (Nat.digits 58 N).reverse
    simp only [List.replicate_succ, List.replicate_zero, List.cons_append, List.nil_append] at this
    rw [this, digitsValue_reverse, Nat.ofDigits_digits]
  have htmp : tmp = [1, 0, 0] ++ p := by
    apply beValue_inj
    · rw [e1]; simp [hdl, hpl]
    · rw [e2, hval, beValue_append, hpl, hN]
      have : beValue [1, 0, 0] = 65536 := rfl
      rw [this]; norm_num
  have hzs : (((0 : Nat) :: (Nat.digits 58 N).reverse).takeWhile (· == 0)).length = 1 := by
    have hh := b58Num_head N
    unfold b58Num at hh
    cases hr : (Nat.digits 58 N).reverse with
    | nil => have := congrArg List.length hr; simp [hdl] at this
    | cons d r =>
      rw [hr] at hh
      have : d ≠ 0 := by
        rintro rfl
        exact hh rfl
      simp [this]
  rw [hzs, htmp, hds] at e3
  have hcz : countZeros (([1, 0, 0] ++ p).drop 1) = 3 := by
    rw [← hp]; simp [countZeros, hx]
  rw [hcz] at e3
  have hlen3 : ([1, 0, 0] ++ p : Bytes).length = 28 := by simp [hpl]
  rw [hlen3, length_zeros, if_neg (by norm_num)] at e3
  have hd3 : ([1, 0, 0] ++ p : Bytes).drop 3 = p := rfl
  rw [hd3, List.append_nil] at e3
  have hch : fromBase58Check doubleSha (49 :: b58Num N) (zeros 21) = (21, 0 :: x :: xs) := by
    unfold fromBase58Check
    simp only [length_zeros, e3]
    have e5 : p ++ zeros (25 - (28 - 3)) = p := by simp [zeros]
    rw [e5]
    have e1 : p.take 21 = 0 :: x :: xs := by
      rw [← hp]; exact List.take_left' (by simp [hh] at hh ⊢)
    have e2 : p.drop 21 = (Spec.hash256 (0 :: x :: xs)).take 4 := by
      rw [← hp]; exact List.drop_left' (by simp [hh] at hh ⊢)
    norm_num
    rw [e1, e2, doubleSha_at_once _ (by simp [hh] at hh ⊢)]
    simp [zeros]
  have hn : Script.addressNetwork (49 :: b58Num N) = none := addressNetwork_none _ _ (by decide) (by decide)
  obtain ⟨sc', g1, g2, -⟩ := fromAddress_payload sc _ 0 (x :: xs) hh (by rw [htl]; norm_num) hn hch
  refine ⟨_, sc', htl, ?_, g1, g2 (by decide)⟩
  intro he
  have := checkedText_le (0 :: x :: xs) (by simp [hh] at hh ⊢)
  rw [← he, htl] at this
  omega

/-- A witness address of version 1 to 16 is turned into a script whose first byte is the version itself, where BIP 141 asks
for the opcode `OP_1` to `OP_16`; this script has no address. -/
theorem C24_version_wrong (sc : Script) (text prog : Bytes) (net : Network) (v : Nat) (hn : Script.addressNetwork text = some net)
    (hv : 1 ≤ v) (hS : SegwitAddress text net.bech32 v prog) (hp : text.length ≤ 62) :
    ∃ sc', sc.fromAddress text = .ok sc' ∧ sc'.Holds (witnessScript (UInt8.ofNat v) prog) ∧
      witnessScript (UInt8.ofNat v) prog ≠ witnessScript (UInt8.ofNat (0x50 + v)) prog ∧
      ∀ (buffer : Bytes) (net' : Network), sc'.address buffer net' = .ok (zeros buffer.length, 0) := by
  obtain ⟨hm, -⟩ := addressNetwork_some hn
  have hl2 : net.bech32.length = 2 := by rcases hm with rfl | rfl <;> rfl
  rcases fromAddress_segwit sc text net hn (by omega) (.inl (by rw [hl2]; omega)) with ⟨v', prog', f1, sc', f2, f3⟩ | ⟨f1, -⟩
  · have : v' = v ∧ prog' = prog := by
      obtain ⟨r, -, -, g⟩ := segwitDecode_exact 0 (zeros 40) 0 net.bech32 text (.inl (by simp)) (.inl (by omega))
      have g1 := g _ _ f1
      have g2 := g _ _ hS
      refine ⟨?_, g1.2.2.symm.trans g2.2.2⟩
      have := g1.1.symm.trans g2.1
      omega
    obtain ⟨rfl, rfl⟩ := this
    have h16 := hS.1
    refine ⟨sc', f2, f3, ?_, ?_⟩
    · intro he
      simp only [witnessScript, List.cons.injEq] at he
      have := congrArg UInt8.toNat he.1
      rw [UInt8.toNat_ofNat', UInt8.toNat_ofNat'] at this
      omega
    · intro buffer net'
      have hb : ∀ w : UInt8, w = UInt8.ofNat v' → w ≠ 0x76 ∧ w ≠ 0xa9 ∧ w ≠ 0 := by
        rintro w rfl
        refine ⟨?_, ?_, ?_⟩ <;> intro he <;> have := congrArg UInt8.toNat he <;> rw [UInt8.toNat_ofNat', Nat.mod_eq_of_lt (by omega)] at this
        · exact absurd this (by show v' ≠ 118; omega)
        · exact absurd this (by show v' ≠ 169; omega)
        · exact absurd this (by show v' ≠ 0; omega)
      obtain ⟨b1, b2, b3⟩ := hb _ rfl
      have hty : sc'.type = .unknown := by
        unfold Script.type
        simp only [f3.2, witnessScript, List.getElem?_cons_zero]
        simp [b1, b2, b3]
      unfold Script.address
      simp [hty]
  · exact absurd ⟨v, prog, hS⟩ f1

/-- `bech32_decode` on a valid text of at most 90 characters. -/
theorem bech32Decode_valid {text hrp data : Bytes} (hB : Bech32 text hrp data) (hl : text.length ≤ 90) :
    ∃ rest1 rest2, bech32Decode (zeros 84) (zeros 84) 0 text = .ok ⟨true, hrp ++ 0 :: rest1, data ++ rest2, data.length⟩ := by
  have h8 := bech32_length hB
  have h31 := bech32_has_sep hB
  rcases split_sep text with h | ⟨pre, suf, rfl, hs⟩
  · exact absurd h31 h
  · have hL : (pre ++ 0x31 :: suf).length = pre.length + 1 + suf.length := by simp; omega
    rw [hL] at hl h8
    rcases decode_sep (zeros 84) (zeros 84) 0 pre suf hs ⟨by omega, by omega⟩ (fun _ => by rw [length_zeros]; omega)
      (by rw [length_zeros]; omega) with ⟨r, e1, e2, e3⟩ | ⟨data', hB', e2, e3⟩
    · exact absurd ⟨_, _, hB⟩ e3
    · obtain ⟨rfl, rfl⟩ := bech32_unique hB hB'
      exact ⟨_, _, by rw [e3, List.append_assoc]; rfl⟩

/-- A valid witness address with a program of 33 to 40 bytes makes `fromAddress` write past its 32-byte buffer. -/
theorem C24_long_program_overruns (sc : Script) (text prog : Bytes) (net : Network) (v : Nat) (hn : Script.addressNetwork text = some net)
    (hS : SegwitAddress text net.bech32 v prog) (hp : 32 < prog.length) : sc.fromAddress text = .ub := by
  obtain ⟨hm, -⟩ := addressNetwork_some hn
  obtain ⟨h16, ⟨-, h40, -⟩, data, hB, pad, hpad, hbits⟩ := hS
  have hdl := congrArg List.length hbits
  simp only [groups5_eq, groups8_eq, length_groups, List.length_append, List.length_replicate] at hdl
  have hhrp : net.bech32.length = 2 ∧ net.bech32.take 84 = net.bech32 := by rcases hm with rfl | rfl <;> exact ⟨rfl, rfl⟩
  have htl : text.length = 2 + 8 + data.length := by
    obtain ⟨s, s1, s2, s3, -⟩ := hB.form
    have := congrArg List.length s3
    simp [s1, hhrp.1] at this
    omega
  obtain ⟨r1, r2, e⟩ := bech32Decode_valid hB (by omega)
  have hd5 : ∀ x ∈ data, x.toNat < 2 ^ 5 := fun x hx => lt32.mp (hB.values x (by simp [hx]))
  obtain ⟨out, pend, c1, c2, c3, c4, c5⟩ := convertBits_nopad 8 5 (by decide) (by decide) (by decide) data hd5
  have hol := congrArg List.length c4
  simp only [length_groups, List.length_append] at hol
  unfold Script.fromAddress
  rw [if_neg (by omega)]
  simp only [hn]
  have : segwitAddrDecode 0 (zeros 32) 0 net.bech32 text = .ub := by
    unfold segwitAddrDecode
    simp only [e, C.bind_ok, not_true_eq_false, if_false]
    rw [if_neg (by simp only [List.length_cons]; omega), cstr_hrp _ _ hB.hrp_range, if_neg (by simp)]
    simp only [List.cons_append, List.getD_cons_zero, List.length_cons, List.take_succ_cons, List.drop_succ_cons, List.drop_zero]
    rw [if_neg (by
      rw [gt_iff_lt, UInt8.lt_iff_toNat_lt, UInt8.toNat_ofNat', Nat.mod_eq_of_lt (by omega)]
      show ¬ 16 < v
      omega)]
    rw [show (data ++ r2).take data.length = data by simp, c1]
    rw [store, if_neg (by rw [length_zeros]; omega)]
    rfl
  rw [this]; rfl

/-! ### The hypotheses can be met -/

section Examples

private def exHash : Bytes := List.replicate 20 7

example : ∃ text, ({ scriptLen := 23, arr := p2shScript exHash } : Script).address (zeros 40) testnet =
      .ok (text ++ zeros ((zeros 40).length - text.length), text.length) ∧
    text = checkedText (0xC4 :: exHash) ∧ ∃ sc', ({} : Script).fromAddress text = .ok sc' ∧ sc'.Holds (legacyScript .p2sh exHash) :=
  C23_legacy_roundtrip _ {} .p2sh 0xC4 exHash (zeros 40) testnet (by simp [networks]) rfl (by decide) rfl ⟨rfl, rfl⟩ (by decide)

example : ∃ text, ({ scriptLen := 25, arr := p2pkhScript exHash } : Script).address (zeros 40) mainnet =
      .ok (text ++ zeros ((zeros 40).length - text.length), text.length) ∧
    text = checkedText (0 :: exHash) ∧ ∃ sc', ({} : Script).fromAddress text = .ok sc' ∧ sc'.Holds (p2pkhScript exHash) :=
  C23_p2pkh_mainnet_partial _ {} exHash (zeros 40) rfl ⟨rfl, rfl⟩ (by decide) (by decide)

example : ∃ text, ({ scriptLen := 22, arr := witnessScript 0 exHash } : Script).address (zeros 80) signet =
      .ok (text ++ zeros ((zeros 80).length - text.length), text.length) ∧
      SegwitAddress text signet.bech32 0 exHash ∧ ∃ sc', ({} : Script).fromAddress text = .ok sc' ∧ sc'.Holds (witnessScript 0 exHash) :=
  C23_witness_roundtrip _ {} exHash (zeros 80) signet (by simp [networks]) (by decide) (.inl rfl) ⟨rfl, rfl⟩ (by decide)

example : ∃ text, ({ scriptLen := 22, arr := witnessScript 0 exHash } : Script).address (zeros 80) regtest =
      .ok (text ++ zeros ((zeros 80).length - text.length), text.length) ∧
      SegwitAddress text regtest.bech32 0 exHash ∧ ({} : Script).fromAddress text = .ok {} :=
  C23_regtest_wrong _ {} exHash (zeros 80) (.inl rfl) ⟨rfl, rfl⟩ (by decide)

/-- The all-zero hash: a text of 27 characters, refused. -/
example : ({} : Script).fromAddress (checkedText (0 :: zeros 20)) = .ok {} := by
  obtain ⟨text, -, e2, sc', e3, -, e5⟩ := C23_p2pkh_mainnet_iff { scriptLen := 25, arr := p2pkhScript (zeros 20) } {} (zeros 20) (zeros 40)
    rfl ⟨rfl, rfl⟩ (by decide)
  have hl : (checkedText (0 :: zeros 20)).length < 33 := by decide +kernel
  rw [← e2] at hl ⊢
  rw [e3, e5 hl]; rfl

/-- The Bitcoin address of the first block's key. -/
private def exText : Bytes := [49, 65, 49, 122, 80, 49, 101, 80, 53, 81, 71, 101, 102, 105, 50, 68, 77, 80, 84, 102, 84, 76, 53, 83, 76, 109, 118, 55, 68, 105, 118, 102, 78, 97]

example : ∃ sc', ({} : Script).fromAddress exText = .ok sc' :=
  (C24_from_address_partial {} exText (by decide) ⟨[], rfl, rfl⟩ (.inl (by decide))).imp fun _ h => h.1

example : ({} : Script).fromAddress (exText ++ [33]) = ({} : Script).fromAddress exText :=
  C24_garbage_ignored {} exText [33] (by decide) (by decide) (by decide) (by decide)

example : ∃ text sc', text.length = 38 ∧ text ≠ checkedText (0 :: exHash) ∧ ({} : Script).fromAddress text = .ok sc' ∧
    sc'.Holds (p2pkhScript exHash) := C24_another_text_accepted {} exHash rfl (by decide)

/-- Version 1 and 40 bytes: a text of 74 characters that overruns the buffer. -/
example : ∃ text, text.length = 74 ∧ ({} : Script).fromAddress text = .ub := by
  obtain ⟨text, -, e2, e3, ⟨r, e4⟩, -⟩ := segwitEncode_form (zeros 100) mainnet.bech32 1 (List.replicate 40 7) (by decide) (by decide) (by decide)
    ⟨by decide, by decide, by decide⟩ (by decide) (by decide)
  exact ⟨text, e3, C24_long_program_overruns {} text _ mainnet 1 (by rw [e4]; exact addressNetwork_bc _) e2 (by decide)⟩

/-- A Taproot program. -/
example : ∃ text sc', ({} : Script).fromAddress text = .ok sc' ∧ sc'.Holds (1 :: 32 :: List.replicate 32 7) ∧
    ∀ (buffer : Bytes) (net' : Network), sc'.address buffer net' = .ok (zeros buffer.length, 0) := by
  obtain ⟨text, -, e2, e3, ⟨r, e4⟩, -⟩ := segwitEncode_form (zeros 100) mainnet.bech32 1 (List.replicate 32 7) (by decide) (by decide) (by decide)
    ⟨by decide, by decide, by decide⟩ (by decide) (by decide)
  obtain ⟨sc', h1, h2, -, h4⟩ := C24_version_wrong {} text _ mainnet 1 (by rw [e4]; exact addressNetwork_bc _) (by decide) e2 (by rw [e3]; decide)
  exact ⟨text, sc', h1, h2, h4⟩

end Examples

end UB
