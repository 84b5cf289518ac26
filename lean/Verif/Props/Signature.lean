import Verif.Model.Signature
import Verif.Spec.Der
import Verif.Lemmas.Bytes
import Verif.Lemmas.Ser
import Verif.Lemmas.Radix
import Verif.Lemmas.Sha2Stream
import Verif.Lemmas.Sha2Words

/-
C32 (DER round trip), C33 (DER strictness), C34 (compact signatures).
-/

namespace UB
open Spec

/-! ### Integers -/

theorem intLenLoop_shape (b : UInt8) (r : Bytes) (hb : b ≠ 0) (z n : Nat) :
    intLenLoop (zeros z ++ b :: r) n = n - z - (if b < 0x80 then 1 else 0) := by
  induction z generalizing n with
  | zero =>
    have h0 : b > 0 := by
      rw [gt_iff_lt, UInt8.lt_iff_toNat_lt]
      rcases Nat.eq_zero_or_pos b.toNat with h | h
      · exact absurd (UInt8.toNat_inj.mp (by simpa using h)) hb
      · simpa using h
    show intLenLoop (b :: r) n = _
    rw [intLenLoop, if_pos h0]
    split_ifs <;> simp
  | succ z ih =>
    rw [zeros_succ, List.cons_append, intLenLoop, if_neg (by decide), ih, Nat.sub_sub n 1, Nat.add_comm 1]

/-- Content octets the code writes for 32 bytes. -/
def derBytes (x : Bytes) : Bytes := if intLen x = 33 then 0 :: x else x.drop (32 - intLen x)

/-- The two forms of 32 bytes. -/
theorem der_shape (x : Bytes) (h : x.length = 32) : (x = zeros 32 ∧ intLen x = 1 ∧ derBytes x = [0]) ∨
    ∃ z b r, b ≠ 0 ∧ x = zeros z ++ b :: r ∧ intLen x = r.length + 1 + (if b < 0x80 then 0 else 1) ∧
      derBytes x = (if b < 0x80 then [] else [0]) ++ b :: r := by
  obtain ⟨h1, h2⟩ := countZeros_split x
  generalize countZeros x = z at h1 h2
  cases hd : x.drop z with
  | nil =>
    left
    rw [hd, List.append_nil] at h1
    have : z = 32 := by rw [← h, h1]; simp
    subst this
    rw [h1]
    exact ⟨rfl, by decide, by decide⟩
  | cons b r =>
    right
    rw [hd] at h1 h2
    have hb : b ≠ 0 := by simpa using h2
    have hzr : z + r.length + 1 = 32 := by
      have := congrArg List.length h1
      simp [h] at this
      omega
    have hi : intLen x = r.length + 1 + (if b < 0x80 then 0 else 1) := by
      unfold intLen
      rw [h1, intLenLoop_shape b r hb]
      split_ifs <;> omega
    refine ⟨z, b, r, hb, h1, hi, ?_⟩
    unfold derBytes
    rw [hi]
    split_ifs with c1 c2 c2
    · omega
    · rw [h1]
      rw [List.drop_left' (by rw [length_zeros]; omega)]; rfl
    · have hz0 : z = 0 := by omega
      subst hz0
      rw [h1]; rfl
    · obtain ⟨k, rfl⟩ : ∃ k, z = k + 1 := ⟨z - 1, by omega⟩
      have e : zeros (k + 1) = zeros k ++ [0] := by unfold zeros; rw [List.replicate_succ']
      rw [h1, e, List.append_assoc, List.drop_left' (by rw [length_zeros]; omega)]

theorem length_derBytes (x : Bytes) (h : x.length = 32) : (derBytes x).length = intLen x ∧ 1 ≤ intLen x ∧ intLen x ≤ 33 := by
  rcases der_shape x h with ⟨-, h2, h3⟩ | ⟨z, b, r, h1, h2, h3, h4⟩
  · rw [h2, h3]; simp
  · have hl : z + r.length + 1 = 32 := by
      have := congrArg List.length h2
      simp [h] at this
      omega
    rw [h3, h4]
    split_ifs <;> simp <;> omega

theorem derBytes_value (x : Bytes) (h : x.length = 32) : beValue (derBytes x) = beValue x := by
  rcases der_shape x h with ⟨h1, h2, h3⟩ | ⟨z, b, r, h1, h2, h3, h4⟩
  · rw [h3, h1, beValue_zeros]; rfl
  · rw [h4, h2]
    split_ifs <;> simp [beValue_append, beValue_zeros, beValue_cons]

theorem derBytes_content (x : Bytes) (h : x.length = 32) : DerContent (derBytes x) (beValue x) := by
  have hv := derBytes_value x h
  rcases der_shape x h with ⟨h1, h2, h3⟩ | ⟨z, b, r, h1, h2, h3, h4⟩
  · rw [h3] at hv ⊢
    refine ⟨by simp, ?_, by simp⟩
    unfold twosValue
    rw [hv]; simp
  · rw [h4] at hv ⊢
    refine ⟨by simp, ?_, ?_⟩
    · unfold twosValue
      rw [hv]
      by_cases c1 : b < 0x80
      · rw [if_pos c1, if_neg (by
          show ¬ 0x80 ≤ b
          rw [UInt8.not_le]; exact c1)]
      · rw [if_neg c1, if_neg (by show ¬ (0x80 : UInt8) ≤ 0; decide)]
    · intro a c r' he
      split_ifs at he with c1
      · simp at he
        obtain ⟨rfl, rfl⟩ := he
        refine ⟨fun h => h1 h.1, ?_⟩
        rintro ⟨rfl, -⟩
        exact absurd c1 (by decide)
      · simp at he
        obtain ⟨rfl, rfl, rfl⟩ := he
        exact ⟨fun h => c1 h.2, fun h => absurd h.1 (by decide)⟩

theorem content_head {c : Bytes} {n : Nat} (h : DerContent c n) : c.headD 0 < 0x80 ∧ beValue c = n := by
  obtain ⟨-, h2, -⟩ := h
  unfold twosValue at h2
  split_ifs at h2 with hc
  · have := beValue_lt c
    have : (beValue c : Int) < 256 ^ c.length := by exact_mod_cast this
    omega
  · exact ⟨by rwa [UInt8.not_le] at hc, by exact_mod_cast h2⟩

/-- An integer has one encoding only. -/
theorem content_unique {c c' : Bytes} {n : Nat} (h : DerContent c n) (h' : DerContent c' n) : c = c' := by
  have key : ∀ c c' : Bytes, DerContent c n → DerContent c' n → c'.length < c.length → False := by
    intro c c' h h' hl
    obtain ⟨a1, a2⟩ := content_head h
    obtain ⟨b1, b2⟩ := content_head h'
    have e : c = zeros (c.length - c'.length) ++ c' := by
      apply beValue_inj
      · simp; omega
      · rw [beValue_append, beValue_zeros, a2, b2]; simp
    obtain ⟨x, xs, rfl⟩ : ∃ x xs, c' = x :: xs := by
      cases c' with
      | nil => exact absurd rfl h'.1
      | cons x xs => exact ⟨x, xs, rfl⟩
    obtain ⟨k, hk⟩ : ∃ k, c.length - (x :: xs).length = k + 1 := ⟨c.length - (x :: xs).length - 1, by omega⟩
    rw [hk, zeros_succ] at e
    cases k with
    | zero =>
      exact (h.2.2 0 x xs e).1 ⟨rfl, b1⟩
    | succ k =>
      rw [zeros_succ] at e
      exact (h.2.2 0 0 _ e).1 ⟨rfl, by decide⟩
  rcases Nat.lt_trichotomy c.length c'.length with hl | hl | hl
  · exact (key c' c h' h hl).elim
  · exact beValue_inj hl ((content_head h).2.trans (content_head h').2.symm)
  · exact (key c c' h h' hl).elim

theorem derSig_unique {b b' : Bytes} {r s : Nat} (h : DerSig b r s) (h' : DerSig b' r s) : b = b' := by
  obtain ⟨cr, cs, h1, h2, -, rfl⟩ := h
  obtain ⟨cr', cs', h1', h2', -, rfl⟩ := h'
  rw [content_unique h1 h1', content_unique h2 h2']

/-! ### Writing -/

/-- What the code writes for two 32-byte numbers; `L` is the length byte. -/
def sigBytes (L : UInt8) (r s : Bytes) : Bytes :=
  [0x30, L] ++ ([0x02, UInt8.ofNat (derBytes r).length] ++ derBytes r) ++ ([0x02, UInt8.ofNat (derBytes s).length] ++ derBytes s)

theorem sigBytes_der (r s : Bytes) (hr : r.length = 32) (hs : s.length = 32) :
    DerSig (sigBytes (UInt8.ofNat (intLen r + intLen s + 4)) r s) (beValue r) (beValue s) := by
  obtain ⟨h1, h2, h3⟩ := length_derBytes r hr
  obtain ⟨g1, g2, g3⟩ := length_derBytes s hs
  refine ⟨derBytes r, derBytes s, derBytes_content r hr, derBytes_content s hs, by omega, ?_⟩
  unfold sigBytes
  rw [h1, g1]

theorem store_mid (a m b d : Bytes) (off : Nat) (ho : off = a.length) (hm : m.length = d.length) :
    store (a ++ (m ++ b)) off d = .ok (a ++ (d ++ b)) := by
  subst ho
  unfold store
  rw [if_pos (by simp; omega)]
  congr 1
  rw [List.take_left' rfl, ← List.append_assoc a m b, List.drop_left' (by simp; omega), List.append_assoc]

theorem store_zeros (a d : Bytes) (n off : Nat) (ho : off = a.length) (hn : d.length ≤ n) :
    store (a ++ zeros n) off d = .ok (a ++ d ++ zeros (n - d.length)) := by
  have e : zeros n = zeros d.length ++ zeros (n - d.length) := by
    unfold zeros; rw [List.replicate_append_replicate]; congr 1; omega
  rw [e, store_mid a _ _ d off ho (by simp), List.append_assoc]

theorem load_all (x : Bytes) (h : x.length = 32) : load x 0 32 = .ok x := by
  unfold load
  rw [if_pos (by omega)]
  simp [← h]

/-- Writing the content octets after zeroed memory. -/
theorem putInt_zeros (a x : Bytes) (n off : Nat) (ho : off = a.length) (h : x.length = 32) (hn : intLen x ≤ n) :
    Sig.putInt (a ++ zeros n) off x = C.ok (a ++ derBytes x ++ zeros (n - (derBytes x).length)) := by
  subst ho
  obtain ⟨g1, g2, g3⟩ := length_derBytes x h
  unfold Sig.putInt
  unfold derBytes at g1 ⊢
  split_ifs with hc
  · rw [load_all x h]
    simp only [C.bind_ok]
    obtain ⟨m, rfl⟩ : ∃ m, n = m + 1 := ⟨n - 1, by omega⟩
    have e : a ++ zeros (m + 1) = (a ++ [0]) ++ zeros m := by rw [zeros_succ]; simp
    rw [e, store_zeros _ _ _ _ (by simp) (by omega)]
    simp [h]
  · rw [if_neg hc] at g1
    unfold load
    rw [if_pos (by omega)]
    simp only [C.bind_ok]
    have e : (x.drop (32 - intLen x)).take (intLen x) = x.drop (32 - intLen x) := List.take_of_length_le (by omega)
    rw [e, store_zeros _ _ _ _ rfl (by omega)]

/-- C32: `der` writes the DER encoding of `r` and `s` (at most 72 bytes) followed by zeros, and returns its length. -/
theorem C32_der (g : Sig) (bytes : Bytes) (hr : g.r.length = 32) (hs : g.s.length = 32) (hb : g.length ≤ bytes.length) :
    ∃ d, g.der bytes = .ok (d.length, d ++ zeros (bytes.length - d.length)) ∧ DerSig d (beValue g.r) (beValue g.s) ∧
      d.length = g.length ∧ d.length ≤ 72 := by
  obtain ⟨h1, h2, h3⟩ := length_derBytes g.r hr
  obtain ⟨g1, g2, g3⟩ := length_derBytes g.s hs
  unfold Sig.length at hb
  have hdl : (sigBytes (UInt8.ofNat (intLen g.r + intLen g.s + 4)) g.r g.s).length = intLen g.r + intLen g.s + 6 := by
    unfold sigBytes; simp [h1, g1]; omega
  refine ⟨_, ?_, sigBytes_der g.r g.s hr hs, hdl, by omega⟩
  rw [hdl]
  generalize hn : bytes.length = n at hb
  unfold Sig.der
  simp only [hn]
  have z1 := store_zeros [] [0x30] n 0 rfl (by simp; omega)
  simp only [List.nil_append] at z1
  rw [z1]
  simp only [C.bind_ok]
  rw [store_zeros [0x30] _ _ 1 rfl (by simp; omega)]
  simp only [C.bind_ok]
  rw [store_zeros _ _ _ 2 rfl (by simp; omega)]
  simp only [C.bind_ok]
  rw [store_zeros _ _ _ 3 rfl (by simp; omega)]
  simp only [C.bind_ok]
  rw [putInt_zeros _ _ _ 4 rfl hr (by simp; omega)]
  simp only [C.bind_ok]
  rw [store_zeros _ _ _ _ (by simp [h1]; omega) (by simp [h1]; omega)]
  simp only [C.bind_ok]
  rw [store_zeros _ _ _ _ (by simp [h1]; omega) (by simp [h1]; omega)]
  simp only [C.bind_ok]
  rw [putInt_zeros _ _ _ _ (by simp [h1]; omega) hs (by simp [h1]; omega)]
  simp only [C.bind_ok, C.pure_eq, C.ok.injEq, Prod.mk.injEq]
  refine ⟨by omega, ?_⟩
  unfold sigBytes
  rw [h1, g1]
  simp only [List.cons_append, List.nil_append, List.append_assoc, List.cons.injEq, true_and, List.length_cons, List.length_nil]
  refine ⟨by congr 1; omega, ?_⟩
  rw [show n - (0 + 1) - (0 + 1) - (0 + 1) - (0 + 1) - intLen g.r - (0 + 1) - (0 + 1) - intLen g.s = n - (intLen g.r + intLen g.s + 6) by omega]

theorem store_inv {b d b' : Bytes} {off : Nat} (h : store b off d = .ok b') : off + d.length ≤ b.length ∧ b'.length = b.length := by
  unfold store at h
  split_ifs at h with hc
  cases h
  refine ⟨hc, ?_⟩
  simp only [List.length_append, List.length_take, List.length_drop]
  omega

/-- C32, limits: `der` takes the size of the buffer but uses it only to clear the buffer; an encoding longer than the buffer is
written beyond its end (Bitcoin.cpp:254-276). -/
theorem C32_der_overrun (g : Sig) (bytes : Bytes) (hr : g.r.length = 32) (hs : g.s.length = 32) (hb : bytes.length < g.length) : g.der bytes = .ub := by
  have hz : (zeros bytes.length).length = bytes.length := by simp [zeros]
  unfold Sig.length at hb
  obtain ⟨-, -, g3⟩ := length_derBytes g.s hs
  cases hd : g.der bytes with
  | ub => rfl
  | ok v =>
    exfalso
    unfold Sig.der at hd
    have inv : ∀ {α β : Type} {x : C α} {f : α → C β} {b : β}, (x >>= f) = .ok b → ∃ a, x = .ok a ∧ f a = .ok b := by
      intro α β x f b h
      cases x with
      | ub => cases h
      | ok a => exact ⟨a, rfl, h⟩
    have pinv : ∀ {b x b' : Bytes} {off : Nat}, x.length = 32 → Sig.putInt b off x = .ok b' → off + intLen x ≤ b.length ∧ b'.length = b.length := by
      intro b x b' off hx h
      unfold Sig.putInt at h
      obtain ⟨-, -, k3⟩ := length_derBytes x hx
      split_ifs at h with hc
      · obtain ⟨l, h1, h2⟩ := inv h
        unfold load at h1
        split_ifs at h1
        cases h1
        obtain ⟨h3, h4⟩ := store_inv h2
        simp only [List.length_take, List.length_drop] at h3
        exact ⟨by omega, h4⟩
      · obtain ⟨l, h1, h2⟩ := inv h
        unfold load at h1
        split_ifs at h1
        cases h1
        obtain ⟨h3, h4⟩ := store_inv h2
        simp only [List.length_take, List.length_drop] at h3
        exact ⟨by omega, h4⟩
    dsimp only at hd
    obtain ⟨b1, e1, hd⟩ := inv hd
    obtain ⟨b2, e2, hd⟩ := inv hd
    obtain ⟨b3, e3, hd⟩ := inv hd
    obtain ⟨b4, e4, hd⟩ := inv hd
    obtain ⟨b5, e5, hd⟩ := inv hd
    obtain ⟨b6, e6, hd⟩ := inv hd
    obtain ⟨b7, e7, hd⟩ := inv hd
    obtain ⟨b8, e8, hd⟩ := inv hd
    have := (store_inv e1).2
    have := (store_inv e2).2
    have := (store_inv e3).2
    have := (store_inv e4).2
    have := (pinv hr e5).2
    have := (store_inv e6).2
    have := (store_inv e7).2
    have := (pinv hs e8).1
    omega

/-- C32: buffers which are too short exist, for instance one of 32 bytes for an encoding of 70 bytes. -/
example : (zeros 32).length < ({ r := List.replicate 32 1, s := List.replicate 32 1 } : Sig).length := by decide

/-! ### Reading -/

theorem fillInt_full (base tot : Nat) (data t : Bytes) (h : data.length = tot) (ht : tot ≤ 32) :
    Sig.fillInt base tot (zeros 32) base { bytes := data ++ t } = (.ok (zeros (32 - tot) ++ data), tot, { bytes := t }) := by
  subst h
  unfold Sig.fillInt PStream.readN
  simp only [Bool.false_eq_true, if_false, List.append_nil, Nat.add_sub_cancel_left]
  rw [List.take_left' rfl, List.drop_left' rfl]
  simp only [Prod.mk.injEq, and_true, true_and]
  split_ifs with h1 h2
  · subst h1; rfl
  · omega
  · rw [show base + 32 - (base + data.length) = 32 - data.length by omega]
    have e : zeros 32 = zeros (32 - data.length) ++ zeros data.length := by
      unfold zeros; rw [List.replicate_append_replicate]; congr 1; omega
    rw [e, store_zeros _ _ _ _ (by simp) (Nat.le_refl _)]
    simp [zeros]

theorem fillInt_full33 (base : Nat) (data t : Bytes) (h : data.length = 32) :
    Sig.fillInt base 33 (zeros 32) (base + 1) { bytes := data ++ t } = (.ok data, 32, { bytes := t }) := by
  unfold Sig.fillInt PStream.readN
  simp only [Bool.false_eq_true, if_false, List.append_nil, show base + 33 - (base + 1) = 32 by omega]
  rw [List.take_left' h, List.drop_left' h]
  simp only [Prod.mk.injEq, h, and_true]
  rw [if_neg (by rintro rfl; simp at h), if_neg (by omega), show base + 1 + 32 - (base + 33) = 0 by omega]
  have := store_zeros [] data 32 0 rfl (by omega)
  rw [List.nil_append] at this
  rw [this]
  simp [h, zeros]

theorem fillInt_short (base tot pos : Nat) (t : Bytes) (hp : base ≤ pos) (h : t.length < base + tot - pos) (ht : tot ≤ 32 ∨ base < pos) (ht' : tot ≤ 33) :
    ∃ x, x.length = 32 ∧ Sig.fillInt base tot (zeros 32) pos { bytes := t } = (.ok x, t.length, { bytes := [] }) := by
  unfold Sig.fillInt PStream.readN
  simp only [Bool.false_eq_true, if_false, List.append_nil]
  rw [List.take_of_length_le (by omega), List.drop_of_length_le (by omega)]
  split_ifs with h1 h2
  · exact ⟨_, by simp, rfl⟩
  · omega
  · unfold store
    rw [if_pos (by simp; omega)]
    exact ⟨_, by simp; omega, rfl⟩

/-- The bytes that `derBytes` of some 32-byte number can be. -/
theorem derBytes_of (k : Nat) (data : Bytes) (h : data.length = k) (hk : k ≤ 32) (hi : intLen (zeros (32 - k) ++ data) = k) :
    derBytes (zeros (32 - k) ++ data) = data := by
  unfold derBytes
  rw [hi, if_neg (by omega), List.drop_left' (by simp)]

theorem derBytes_of33 (data : Bytes) (h : data.length = 32) (hi : intLen data = 33) : derBytes data = 0 :: data := by
  unfold derBytes
  rw [if_pos hi]

theorem zeros_derBytes (x : Bytes) (hx : x.length = 32) (h : intLen x ≠ 33) : zeros (32 - intLen x) ++ derBytes x = x := by
  obtain ⟨h1, h2, h3⟩ := length_derBytes x hx
  have hv := derBytes_value x hx
  apply beValue_inj
  · simp [h1, hx]; omega
  · rw [beValue_append, beValue_zeros, hv]; simp

/-- Outcome of reading one integer: pad byte (for 33 bytes) and contents. -/
inductive IntRead (base tot : Nat) (t : Bytes) (x : Bytes) (n : Nat) (t' : Bytes) : Prop
  | full (h : t = derBytes x ++ t') (hx : x.length = 32) (hn : n = tot) (ht : intLen x = tot)
  | short (h : t' = []) (hn : n < tot) (ht : t.length = n) (hx : x.length = 32)

namespace Sig

theorem byte_nil (g : Sig) (br : Nat) (cond : Sig → Bool) (lim : Sig → Nat) (f : Sig → UInt8 → Option Sig) :
    ({ g := g, br := br, st := { bytes := [] } } : Run).byte cond lim f = { g := g, br := br, st := { bytes := [] } } := by
  simp [Run.byte, PStream.avail]

theorem byte_skip (g : Sig) (br : Nat) (t : Bytes) (cond : Sig → Bool) (lim : Sig → Nat) (f : Sig → UInt8 → Option Sig)
    (h : cond g = false ∨ lim g ≤ g.bytesParsed + br) :
    ({ g := g, br := br, st := { bytes := t } } : Run).byte cond lim f = { g := g, br := br, st := { bytes := t } } := by
  unfold Run.byte
  rcases h with h | h
  · simp [h]
  · have : ¬ g.bytesParsed + br < lim g := by omega
    simp [this]

theorem byte_cons (g : Sig) (br : Nat) (b : UInt8) (t : Bytes) (cond : Sig → Bool) (lim : Sig → Nat) (f : Sig → UInt8 → Option Sig)
    (h1 : cond g = true) (h2 : g.bytesParsed + br < lim g) :
    ({ g := g, br := br, st := { bytes := b :: t } } : Run).byte cond lim f =
      match f g b with
      | some g => { g := g, br := br + 1, st := { bytes := t } }
      | none => { g := { g with status := .failed }, br := br + 1, st := { bytes := t }, stop := true } := by
  unfold Run.byte
  simp [PStream.avail, h1, h2, PStream.readByte]
  cases f g b <;> rfl

theorem byte_stop (x : Run) (cond : Sig → Bool) (lim : Sig → Nat) (f : Sig → UInt8 → Option Sig) (h : x.stop = true) :
    x.byte cond lim f = x := by simp [Run.byte, h]

theorem fillR_stop (x : Run) (h : x.stop = true) : x.fillR = x := by simp [Run.fillR, h]
theorem fillS_stop (x : Run) (h : x.stop = true) : x.fillS = x := by simp [Run.fillS, h]

/-- A call that has returned unsuccessfully. -/
def Bad (x : Run) : Prop := x.stop = true ∧ x.g.status = .failed

/-- Bitcoin.cpp:165-174: the pad byte and the bytes of `r`. -/
def stepR (x : Run) : Run := (x.byte (fun g => g.tot1 == 33) (fun _ => 5) fun g c => if c ≠ 0 then none else some g).fillR

def stepS (x : Run) : Run :=
  (x.byte (fun g => g.tot2 == 33) (fun g => 4 + g.tot1.toNat + 3) fun g c => if c ≠ 0 then none else some g).fillS

theorem stepR_cases (g : Sig) (t : Bytes) (hp : g.bytesParsed = 0) (hr : g.r = zeros 32) (ht : g.tot1 ≤ 33) :
    Bad (stepR { g := g, br := 4, st := { bytes := t } }) ∨
    ∃ x n t', stepR { g := g, br := 4, st := { bytes := t } } = { g := { g with r := x }, br := 4 + n, st := { bytes := t' } } ∧
      IntRead 4 g.tot1.toNat t x n t' := by
  have ht' : g.tot1.toNat ≤ 33 := by rw [UInt8.le_iff_toNat_le] at ht; exact ht
  have htb : g.tot1 = 33 ↔ g.tot1.toNat = 33 := by rw [← UInt8.toNat_inj]; rfl
  unfold stepR
  by_cases h33 : g.tot1 = 33
  · have h33' := htb.mp h33
    cases t with
    | nil =>
      rw [byte_nil]
      unfold Run.fillR
      simp only [Bool.false_eq_true, if_false, hp, hr, h33', Nat.zero_add]
      simp only [Sig.fillInt, PStream.readN, List.take_nil, if_true, Bool.false_eq_true, if_false, List.append_nil]
      left
      rw [if_pos (by decide)]
      exact ⟨rfl, rfl⟩
    | cons b t =>
      rw [byte_cons _ _ _ _ _ _ _ (by simp [h33]) (by show g.bytesParsed + 4 < 5; omega)]
      by_cases hb : b = 0
      · subst hb
        simp only [ne_eq, not_true_eq_false, if_false]
        unfold Run.fillR
        simp only [Bool.false_eq_true, if_false, hp, hr, h33', Nat.zero_add]
        by_cases hl : 32 ≤ t.length
        · have e := fillInt_full33 4 (t.take 32) (t.drop 32) (by simp; omega)
          rw [List.take_append_drop] at e
          simp only [e]
          split_ifs with hi
          · left; exact ⟨rfl, rfl⟩
          · right
            rw [ne_eq, not_not] at hi
            refine ⟨t.take 32, 33, t.drop 32, rfl, .full ?_ (by simp; omega) rfl hi⟩
            rw [derBytes_of33 _ (by simp; omega) hi]
            simp
        · obtain ⟨x, e1, e2⟩ := fillInt_short 4 33 5 t (by omega) (by omega) (.inr (by omega)) (by omega)
          simp only [e2]
          split_ifs with hi
          · left; exact ⟨rfl, rfl⟩
          · right
            refine ⟨x, 1 + t.length, [], by rw [← Nat.add_assoc], .short rfl (by omega) (by simp; omega) e1⟩
      · simp only [ne_eq, hb, not_false_eq_true, if_true]
        left
        rw [fillR_stop _ rfl]
        exact ⟨rfl, rfl⟩
  · have h33' : g.tot1.toNat ≠ 33 := fun h => h33 (htb.mpr h)
    rw [byte_skip _ _ _ _ _ _ (.inl (by simp [h33]))]
    unfold Run.fillR
    simp only [Bool.false_eq_true, if_false, hp, hr, Nat.zero_add]
    by_cases hl : g.tot1.toNat ≤ t.length
    · have e := fillInt_full 4 g.tot1.toNat (t.take g.tot1.toNat) (t.drop g.tot1.toNat) (by simp; omega) (by omega)
      rw [List.take_append_drop] at e
      simp only [e]
      split_ifs with hi
      · left; exact ⟨rfl, rfl⟩
      · right
        rw [ne_eq, not_not] at hi
        refine ⟨_, _, _, rfl, .full ?_ (by simp; omega) rfl hi⟩
        rw [derBytes_of _ _ (by simp; omega) (by omega) hi]
        simp
    · obtain ⟨x, e1, e2⟩ := fillInt_short 4 g.tot1.toNat 4 t (by omega) (by omega) (.inl (by omega)) (by omega)
      simp only [e2]
      split_ifs with hi
      · left; exact ⟨rfl, rfl⟩
      · right
        exact ⟨x, _, _, rfl, .short rfl (by omega) rfl e1⟩

theorem stepS_cases (g : Sig) (base : Nat) (t : Bytes) (hp : g.bytesParsed = 0) (hr : g.s = zeros 32) (ht : g.tot2 ≤ 33) (hb0 : base = 4 + g.tot1.toNat + 2) :
    Bad (stepS { g := g, br := base, st := { bytes := t } }) ∨
    ∃ x n t', stepS { g := g, br := base, st := { bytes := t } } = { g := { g with s := x }, br := base + n, st := { bytes := t' } } ∧
      IntRead base g.tot2.toNat t x n t' := by
  have ht' : g.tot2.toNat ≤ 33 := by rw [UInt8.le_iff_toNat_le] at ht; exact ht
  have htb : g.tot2 = 33 ↔ g.tot2.toNat = 33 := by rw [← UInt8.toNat_inj]; rfl
  unfold stepS
  by_cases h33 : g.tot2 = 33
  · have h33' := htb.mp h33
    cases t with
    | nil =>
      rw [byte_nil]
      unfold Run.fillS
      simp only [Bool.false_eq_true, if_false, hp, hr, h33', Nat.zero_add, ← hb0]
      simp only [Sig.fillInt, PStream.readN, List.take_nil, if_true, Bool.false_eq_true, if_false, List.append_nil]
      left
      rw [if_pos (by decide)]
      exact ⟨rfl, rfl⟩
    | cons b t =>
      rw [byte_cons _ _ _ _ _ _ _ (by simp [h33]) (by show g.bytesParsed + base < 4 + g.tot1.toNat + 3; omega)]
      by_cases hb : b = 0
      · subst hb
        simp only [ne_eq, not_true_eq_false, if_false]
        unfold Run.fillS
        simp only [Bool.false_eq_true, if_false, hp, hr, h33', Nat.zero_add, ← hb0]
        by_cases hl : 32 ≤ t.length
        · have e := fillInt_full33 base (t.take 32) (t.drop 32) (by simp; omega)
          rw [List.take_append_drop] at e
          simp only [e]
          split_ifs with hi
          · left; exact ⟨rfl, rfl⟩
          · right
            rw [ne_eq, not_not] at hi
            refine ⟨t.take 32, 33, t.drop 32, rfl, .full ?_ (by simp; omega) rfl hi⟩
            rw [derBytes_of33 _ (by simp; omega) hi]
            simp
        · obtain ⟨x, e1, e2⟩ := fillInt_short base 33 (base + 1) t (by omega) (by omega) (.inr (by omega)) (by omega)
          simp only [e2]
          split_ifs with hi
          · left; exact ⟨rfl, rfl⟩
          · right
            refine ⟨x, 1 + t.length, [], by rw [← Nat.add_assoc], .short rfl (by omega) (by simp; omega) e1⟩
      · simp only [ne_eq, hb, not_false_eq_true, if_true]
        left
        rw [fillS_stop _ rfl]
        exact ⟨rfl, rfl⟩
  · have h33' : g.tot2.toNat ≠ 33 := fun h => h33 (htb.mpr h)
    rw [byte_skip _ _ _ _ _ _ (.inl (by simp [h33]))]
    unfold Run.fillS
    simp only [Bool.false_eq_true, if_false, hp, hr, Nat.zero_add, ← hb0]
    by_cases hl : g.tot2.toNat ≤ t.length
    · have e := fillInt_full base g.tot2.toNat (t.take g.tot2.toNat) (t.drop g.tot2.toNat) (by simp; omega) (by omega)
      rw [List.take_append_drop] at e
      simp only [e]
      split_ifs with hi
      · left; exact ⟨rfl, rfl⟩
      · right
        rw [ne_eq, not_not] at hi
        refine ⟨_, _, _, rfl, .full ?_ (by simp; omega) rfl hi⟩
        rw [derBytes_of _ _ (by simp; omega) (by omega) hi]
        simp
    · obtain ⟨x, e1, e2⟩ := fillInt_short base g.tot2.toNat base t (by omega) (by omega) (.inl (by omega)) (by omega)
      simp only [e2]
      split_ifs with hi
      · left; exact ⟨rfl, rfl⟩
      · right
        exact ⟨x, _, _, rfl, .short rfl (by omega) rfl e1⟩


theorem fromStream_eq (g : Sig) (st : PStream) (h : g.status = .done) : g.fromStream st =
    ((stepS ((((stepR ((((({ g := g.start, br := 0, st := st } : Run).byte (fun _ => true) (fun _ => 1) fun g c => if c ≠ 0x30 then none else some g).byte
      (fun _ => true) (fun _ => 2) fun g c => if c > 70 then none else some { g with tot0 := c }).byte
      (fun _ => true) (fun _ => 3) fun g c => if c ≠ 0x02 then none else some g).byte
      (fun _ => true) (fun _ => 4) fun g c => if c > 33 then none else some { g with tot1 := c })).byte
      (fun _ => true) (fun g => 4 + g.tot1.toNat + 1) fun g c => if c ≠ 0x02 then none else some g).byte
      (fun _ => true) (fun g => 4 + g.tot1.toNat + 2) fun g c => if c > 33 then none else some { g with tot2 := c }))).finish) := by
  unfold fromStream
  rw [if_neg (by rw [h]; simp)]
  rfl

theorem stepR_stop (x : Run) (h : x.stop = true) : stepR x = x := by
  unfold stepR; rw [byte_stop _ _ _ _ h, fillR_stop _ h]
theorem stepS_stop (x : Run) (h : x.stop = true) : stepS x = x := by
  unfold stepS; rw [byte_stop _ _ _ _ h, fillS_stop _ h]
theorem finish_bad (x : Run) (h : Bad x) : x.finish.1.status = .failed := by
  unfold Run.finish; rw [if_pos h.1]; exact h.2

theorem bad_byte (x : Run) (c l f) (h : Bad x) : Bad (x.byte c l f) := by rw [byte_stop _ _ _ _ h.1]; exact h
theorem bad_stepR (x : Run) (h : Bad x) : Bad (stepR x) := by rw [stepR_stop _ h.1]; exact h
theorem bad_stepS (x : Run) (h : Bad x) : Bad (stepS x) := by rw [stepS_stop _ h.1]; exact h

/-- The tail of the call once it has returned. -/
theorem tail_bad (x : Run) (h : Bad x) : (stepS ((x.byte
      (fun _ => true) (fun g => 4 + g.tot1.toNat + 1) fun g c => if c ≠ 0x02 then none else some g).byte
      (fun _ => true) (fun g => 4 + g.tot1.toNat + 2) fun g c => if c > 33 then none else some { g with tot2 := c })).finish.1.status = .failed := by
  rw [byte_stop _ _ _ _ h.1, byte_stop _ _ _ _ h.1, stepS_stop _ h.1]
  exact finish_bad x h

theorem head_bad (x : Run) (h : Bad x) : (stepR x) = x := stepR_stop x h.1

/-- With nothing left to read before the length of `s`, the check of `slen` fails. -/
theorem tail_nil (g : Sig) (br : Nat) (hs : g.s = zeros 32) (h0 : g.tot2 = 0) :
    Bad (stepS { g := g, br := br, st := { bytes := [] } }) := by
  unfold stepS
  rw [byte_nil]
  unfold Run.fillS
  simp only [Bool.false_eq_true, if_false, hs, h0]
  simp only [Sig.fillInt, PStream.readN, List.take_nil, if_true, Bool.false_eq_true, if_false, List.append_nil]
  rw [if_pos (by decide)]
  exact ⟨rfl, rfl⟩

theorem tail_nil_R (g : Sig) (br : Nat) (hs : g.r = zeros 32) (h0 : g.tot1 = 0) :
    Bad (stepR { g := g, br := br, st := { bytes := [] } }) := by
  unfold stepR
  rw [byte_nil]
  unfold Run.fillR
  simp only [Bool.false_eq_true, if_false, hs, h0]
  simp only [Sig.fillInt, PStream.readN, List.take_nil, if_true, Bool.false_eq_true, if_false, List.append_nil]
  rw [if_pos (by decide)]
  exact ⟨rfl, rfl⟩

/-- The outcome of parsing from the beginning. -/
theorem fromStream_cases (g : Sig) (bs : Bytes) (h : g.status = .done) :
    (∃ L r s rest, L ≤ 70 ∧ r.length = 32 ∧ s.length = 32 ∧ bs = sigBytes L r s ++ rest ∧
      g.fromStream { bytes := bs } = ({ g with bytesParsed := (sigBytes L r s).length, tot0 := L, tot1 := UInt8.ofNat (intLen r), tot2 := UInt8.ofNat (intLen s), r := r, s := s },
        (sigBytes L r s).length, { bytes := rest })) ∨
    (g.fromStream { bytes := bs }).1.status = .failed ∨
      ((g.fromStream { bytes := bs }).1.status = .incomplete ∧ 6 ≤ bs.length) := by
  rw [fromStream_eq g _ h]
  have hst : g.start = { g with status := .incomplete, bytesParsed := 0, tot0 := 0, tot1 := 0, tot2 := 0, r := zeros 32, s := zeros 32 } := by
    unfold start; rw [if_pos h]
  rw [hst]
  cases bs with
  | nil =>
    rw [byte_nil, byte_nil, byte_nil, byte_nil]
    right; left; apply tail_bad; exact tail_nil_R _ _ rfl rfl
  | cons b0 bs =>
  rw [byte_cons _ _ _ _ _ _ _ (by rfl) (by show _ + _ < _; simp only; omega)]
  by_cases h0 : b0 ≠ 0x30
  · simp only [if_pos h0]
    right; left; apply finish_bad; apply bad_stepS; apply bad_byte; apply bad_byte; apply bad_stepR; apply bad_byte; apply bad_byte; apply bad_byte; exact ⟨rfl, rfl⟩
  simp only [if_neg h0]
  rw [ne_eq, not_not] at h0
  cases bs with
  | nil =>
    rw [byte_nil, byte_nil, byte_nil]
    right; left; apply tail_bad; exact tail_nil_R _ _ rfl rfl
  | cons L bs =>
  rw [byte_cons _ _ _ _ _ _ _ (by rfl) (by show _ + _ < _; simp only; omega)]
  by_cases h1 : L > 70
  · simp only [if_pos h1]
    right; left; apply finish_bad; apply bad_stepS; apply bad_byte; apply bad_byte; apply bad_stepR; apply bad_byte; apply bad_byte; exact ⟨rfl, rfl⟩
  simp only [if_neg h1]
  cases bs with
  | nil =>
    rw [byte_nil, byte_nil]
    right; left; apply tail_bad; exact tail_nil_R _ _ rfl rfl
  | cons b2 bs =>
  rw [byte_cons _ _ _ _ _ _ _ (by rfl) (by show _ + _ < _; simp only; omega)]
  by_cases h2 : b2 ≠ 0x02
  · simp only [if_pos h2]
    right; left; apply finish_bad; apply bad_stepS; apply bad_byte; apply bad_byte; apply bad_stepR; apply bad_byte; exact ⟨rfl, rfl⟩
  simp only [if_neg h2]
  rw [ne_eq, not_not] at h2
  cases bs with
  | nil =>
    rw [byte_nil]
    right; left; apply tail_bad; exact tail_nil_R _ _ rfl rfl
  | cons lr bs =>
  rw [byte_cons _ _ _ _ _ _ _ (by rfl) (by show _ + _ < _; simp only; omega)]
  by_cases h3 : lr > 33
  · simp only [if_pos h3]
    right; left; apply finish_bad; apply bad_stepS; apply bad_byte; apply bad_byte; apply bad_stepR; exact ⟨rfl, rfl⟩
  simp only [if_neg h3]
  rcases stepR_cases { g with status := .incomplete, bytesParsed := 0, tot0 := L, tot1 := lr, tot2 := 0, r := zeros 32, s := zeros 32 } bs rfl rfl
    (UInt8.not_lt.mp h3) with hb | ⟨r, n, t, e, hI⟩
  · exact .inr (.inl (tail_bad _ hb))
  rw [show 0 + 1 + 1 + 1 + 1 = 4 from rfl, e]
  rcases hI with ⟨i1, i2, i3, i4⟩ | ⟨i1, i2, i3, i4⟩
  swap
  · subst i1
    rw [byte_nil, byte_nil]
    right; left; apply finish_bad; exact tail_nil _ _ rfl rfl
  simp only at i3 i4 i1
  subst i1 i3
  cases t with
  | nil =>
    rw [byte_nil, byte_nil]
    right; left; apply finish_bad; exact tail_nil _ _ rfl rfl
  | cons b4 t =>
  rw [byte_cons _ _ _ _ _ _ _ (by rfl) (by show 0 + (4 + lr.toNat) < 4 + lr.toNat + 1; omega)]
  by_cases h4 : b4 ≠ 0x02
  · simp only [if_pos h4]
    right; left; apply finish_bad; apply bad_stepS; apply bad_byte; exact ⟨rfl, rfl⟩
  simp only [if_neg h4]
  rw [ne_eq, not_not] at h4
  cases t with
  | nil =>
    rw [byte_nil]
    right; left; apply finish_bad; exact tail_nil _ _ rfl rfl
  | cons ls t =>
  rw [byte_cons _ _ _ _ _ _ _ (by rfl) (by show 0 + (4 + lr.toNat + 1) < 4 + lr.toNat + 2; omega)]
  by_cases h5 : ls > 33
  · simp only [if_pos h5]
    right; left; apply finish_bad; apply bad_stepS; exact ⟨rfl, rfl⟩
  simp only [if_neg h5]
  rcases stepS_cases { g with status := .incomplete, bytesParsed := 0, tot0 := L, tot1 := lr, tot2 := ls, r := r, s := zeros 32 } (4 + lr.toNat + 1 + 1) t rfl rfl
    (UInt8.not_lt.mp h5) rfl with hb | ⟨s, n, t', e', hI⟩
  · exact .inr (.inl (finish_bad _ hb))
  rw [e']
  unfold Run.finish
  rw [if_neg (by simp)]
  rcases hI with ⟨j1, j2, j3, j4⟩ | ⟨j1, j2, j3, j4⟩
  swap
  · right; right
    simp only at j2 ⊢
    rw [if_neg (by omega)]
    simp only [List.length_cons, List.length_append, true_and]
    omega
  left
  simp only at j1 j3 j4
  subst j1 j3 h0 h2 h4
  refine ⟨L, r, s, t', UInt8.not_lt.mp h1, i2, j2, ?_, ?_⟩
  · unfold sigBytes
    rw [(length_derBytes r i2).1, (length_derBytes s j2).1, i4, j4]
    simp
  · have hl : (sigBytes L r s).length = 4 + lr.toNat + 2 + ls.toNat := by
      unfold sigBytes
      simp [(length_derBytes r i2).1, (length_derBytes s j2).1, i4, j4]
      omega
    simp only [hl, i4, j4, UInt8.ofNat_toNat]
    rw [if_pos (by omega), h]
    simp only [Nat.zero_add]

theorem stepR_full (g : Sig) (x t : Bytes) (hp : g.bytesParsed = 0) (hr : g.r = zeros 32) (hx : x.length = 32)
    (ht : g.tot1.toNat = intLen x) :
    stepR { g := g, br := 4, st := { bytes := derBytes x ++ t } } =
      { g := { g with r := x }, br := 4 + intLen x, st := { bytes := t } } := by
  obtain ⟨h1, h2, h3⟩ := length_derBytes x hx
  have htb : g.tot1 = 33 ↔ g.tot1.toNat = 33 := by rw [← UInt8.toNat_inj]; rfl
  unfold stepR
  by_cases h33 : intLen x = 33
  · have hg := htb.mpr (ht.trans h33)
    rw [derBytes_of33 x hx h33, List.cons_append,
      byte_cons _ _ _ _ _ _ _ (by simp [hg]) (by show g.bytesParsed + 4 < 5; omega)]
    simp only [ne_eq, not_true_eq_false, if_false]
    unfold Run.fillR
    simp only [Bool.false_eq_true, if_false, hp, hr, ht, h33, Nat.zero_add, fillInt_full33 4 x t hx, ne_eq, not_true_eq_false]
  · have hg : g.tot1 ≠ 33 := fun h => h33 (ht.symm.trans (htb.mp h))
    rw [byte_skip _ _ _ _ _ _ (.inl (by simp [hg]))]
    unfold Run.fillR
    have hz := zeros_derBytes x hx h33
    simp only [Bool.false_eq_true, if_false, hp, hr, ht, Nat.zero_add, fillInt_full 4 (intLen x) (derBytes x) t h1 (by omega), hz, ne_eq,
      not_true_eq_false]

theorem stepS_full (g : Sig) (base : Nat) (x t : Bytes) (hp : g.bytesParsed = 0) (hr : g.s = zeros 32) (hx : x.length = 32)
    (ht : g.tot2.toNat = intLen x) (hb0 : base = 4 + g.tot1.toNat + 2) :
    stepS { g := g, br := base, st := { bytes := derBytes x ++ t } } =
      { g := { g with s := x }, br := base + intLen x, st := { bytes := t } } := by
  obtain ⟨h1, h2, h3⟩ := length_derBytes x hx
  have htb : g.tot2 = 33 ↔ g.tot2.toNat = 33 := by rw [← UInt8.toNat_inj]; rfl
  unfold stepS
  by_cases h33 : intLen x = 33
  · have hg := htb.mpr (ht.trans h33)
    rw [derBytes_of33 x hx h33, List.cons_append,
      byte_cons _ _ _ _ _ _ _ (by simp [hg]) (by show g.bytesParsed + base < 4 + g.tot1.toNat + 3; omega)]
    simp only [ne_eq, not_true_eq_false, if_false]
    unfold Run.fillS
    simp only [Bool.false_eq_true, if_false, hp, hr, ht, h33, Nat.zero_add, ← hb0, fillInt_full33 base x t hx, ne_eq, not_true_eq_false]
  · have hg : g.tot2 ≠ 33 := fun h => h33 (ht.symm.trans (htb.mp h))
    rw [byte_skip _ _ _ _ _ _ (.inl (by simp [hg]))]
    unfold Run.fillS
    have hz := zeros_derBytes x hx h33
    simp only [Bool.false_eq_true, if_false, hp, hr, ht, Nat.zero_add, ← hb0, fillInt_full base (intLen x) (derBytes x) t h1 (by omega), hz, ne_eq,
      not_true_eq_false]

/-- A well-formed signature with any length byte up to 70 is read completely. -/
theorem fromStream_full (g : Sig) (L : UInt8) (r s rest : Bytes) (h : g.status = .done) (hL : L ≤ 70) (hr : r.length = 32) (hs : s.length = 32) :
    g.fromStream { bytes := sigBytes L r s ++ rest } =
      ({ g with bytesParsed := (sigBytes L r s).length, tot0 := L, tot1 := UInt8.ofNat (intLen r), tot2 := UInt8.ofNat (intLen s), r := r, s := s },
        (sigBytes L r s).length, { bytes := rest }) := by
  obtain ⟨h1, h2, h3⟩ := length_derBytes r hr
  obtain ⟨g1, g2, g3⟩ := length_derBytes s hs
  have t1 : (UInt8.ofNat (intLen r)).toNat = intLen r := by simp; omega
  have t2 : (UInt8.ofNat (intLen s)).toNat = intLen s := by simp; omega
  have hl : (sigBytes L r s).length = 4 + intLen r + 2 + intLen s := by
    unfold sigBytes; simp [h1, g1]; omega
  rw [fromStream_eq g _ h]
  have hst : g.start = { g with status := .incomplete, bytesParsed := 0, tot0 := 0, tot1 := 0, tot2 := 0, r := zeros 32, s := zeros 32 } := by
    unfold start; rw [if_pos h]
  rw [hst, hl]
  have hb : sigBytes L r s ++ rest = 0x30 :: L :: 0x02 :: UInt8.ofNat (intLen r) :: (derBytes r ++ (0x02 :: UInt8.ofNat (intLen s) :: (derBytes s ++ rest))) := by
    unfold sigBytes; rw [h1, g1]; simp
  rw [hb]
  rw [byte_cons _ _ _ _ _ _ _ (by rfl) (by show _ + _ < _; simp only; omega)]
  simp only [ne_eq, not_true_eq_false, if_false]
  rw [byte_cons _ _ _ _ _ _ _ (by rfl) (by show _ + _ < _; simp only; omega)]
  simp only [if_neg (UInt8.not_lt.mpr hL)]
  rw [byte_cons _ _ _ _ _ _ _ (by rfl) (by show _ + _ < _; simp only; omega)]
  simp only [not_true_eq_false, if_false]
  rw [byte_cons _ _ _ _ _ _ _ (by rfl) (by show _ + _ < _; simp only; omega)]
  have c1 : ¬ UInt8.ofNat (intLen r) > 33 := by
    rw [UInt8.not_lt, UInt8.le_iff_toNat_le, t1]; exact h3
  have c2 : ¬ UInt8.ofNat (intLen s) > 33 := by
    rw [UInt8.not_lt, UInt8.le_iff_toNat_le, t2]; exact g3
  simp only [if_neg c1]
  rw [show 0 + 1 + 1 + 1 + 1 = 4 from rfl, stepR_full _ r _ (by rfl) (by rfl) hr (by exact t1)]
  rw [byte_cons _ _ _ _ _ _ _ (by rfl) (by show 0 + (4 + intLen r) < 4 + (UInt8.ofNat (intLen r)).toNat + 1; omega)]
  simp only [not_true_eq_false, if_false]
  rw [byte_cons _ _ _ _ _ _ _ (by rfl) (by show 0 + (4 + intLen r + 1) < 4 + (UInt8.ofNat (intLen r)).toNat + 2; omega)]
  simp only [if_neg c2]
  rw [stepS_full _ (4 + intLen r + 1 + 1) s _ (by rfl) (by rfl) hs (by exact t2) (by show _ = 4 + (UInt8.ofNat (intLen r)).toNat + 2; omega)]
  unfold Run.finish
  rw [if_neg (by simp)]
  simp only [t1, t2]
  rw [if_pos (by omega), h]
  simp only [Nat.zero_add]

end Sig

/-- C32: reading what `der` wrote gives back the same `r` and `s`, from the exact bytes, whatever follows them. -/
theorem C32_roundtrip (g g' : Sig) (bytes : Bytes) (hr : g.r.length = 32) (hs : g.s.length = 32) (hb : g.length ≤ bytes.length)
    (hg : g'.status = .done) :
    ∃ n buf, g.der bytes = .ok (n, buf) ∧ ∀ rest,
      ∃ g'', g'.fromDer (buf.take n ++ rest) = (g'', n) ∧ g''.status = .done ∧ g''.r = g.r ∧ g''.s = g.s ∧ g''.index = g'.index := by
  obtain ⟨d, h1, h2, h3, h4⟩ := C32_der g bytes hr hs hb
  refine ⟨_, _, h1, fun rest => ?_⟩
  rw [List.take_left' rfl]
  have hd := derSig_unique h2 (sigBytes_der g.r g.s hr hs)
  obtain ⟨-, h2, h3⟩ := length_derBytes g.r hr
  obtain ⟨-, g2, g3⟩ := length_derBytes g.s hs
  have := Sig.fromStream_full g' (UInt8.ofNat (intLen g.r + intLen g.s + 4)) g.r g.s rest hg (by
    rw [UInt8.le_iff_toNat_le]; simp; omega) hr hs
  rw [← hd] at this
  unfold Sig.fromDer
  rw [this]
  exact ⟨_, rfl, hg, rfl, rfl, rfl⟩

example : ∃ g : Sig, g.r.length = 32 ∧ g.s.length = 32 ∧ g.length = 71 ∧ g.r ≠ g.s :=
  ⟨{ r := 0x80 :: zeros 31, s := 0x7f :: zeros 31 }, by decide +kernel⟩

/-- C32: the stream interface writes the requested window of the same DER bytes. -/
theorem C32_toStream (g : Sig) (hr : g.r.length = 32) (hs : g.s.length = 32) :
    ∃ d, DerSig d (beValue g.r) (beValue g.s) ∧ ∀ cap off, g.toStream cap off = .ok (window cap off d) := by
  obtain ⟨-, h2, h3⟩ := length_derBytes g.r hr
  obtain ⟨-, g2, g3⟩ := length_derBytes g.s hs
  obtain ⟨d, e1, e2, e3, e4⟩ := C32_der g (zeros 72) hr hs (by simp [Sig.length]; omega)
  refine ⟨d, e2, fun cap off => ?_⟩
  unfold Sig.toStream
  rw [e1]
  simp only [C.bind_ok]
  have := Ser.emit_after' cap off [] (d ++ zeros ((zeros 72).length - d.length)) d.length (by simp) 0 g.length rfl (by simp [e3])
  rw [List.take_left' rfl] at this
  rw [← Ser.after_nil cap off, this]
  rfl

/-- C33 (partial): whenever the parser reports success, the bytes it consumed are the DER encoding of the `r` and `s` it
stored, except that the length byte of the SEQUENCE is not looked at beyond being at most 70; and no input makes it read or
write outside the arrays.  Missing: the SEQUENCE length, see `C33_total_length_ignored`. -/
theorem C33_strict_partial (g : Sig) (bs : Bytes) (h : g.status = .done) :
    (g.fromDer bs).1.status ≠ .ub ∧
    ((g.fromDer bs).1.status = .done →
      (g.fromDer bs).2 ≤ bs.length ∧ ∃ d L, DerSig d (beValue (g.fromDer bs).1.r) (beValue (g.fromDer bs).1.s) ∧
        L ≤ 70 ∧ bs.take (g.fromDer bs).2 = 0x30 :: L :: d.drop 2) := by
  unfold Sig.fromDer
  rcases Sig.fromStream_cases g bs h with ⟨L, r, s, rest, hL, hr, hs, hbs, e⟩ | e | e
  · rw [e]
    refine ⟨by simp [h], fun _ => ⟨by simp [hbs], _, L, sigBytes_der r s hr hs, hL, ?_⟩⟩
    simp only [hbs]
    rw [List.take_left' rfl]
    rfl
  · simp only [e]; simp
  · simp only [e]; simp

/-- C33: every other length byte up to 70 in place of the right one is accepted, with the same result. -/
theorem C33_total_length_ignored (g : Sig) (L : UInt8) (d rest : Bytes) (r s : Nat) (h : g.status = .done) (hL : L ≤ 70)
    (hd : DerSig d r s) (hr : r < 2 ^ 256) (hs : s < 2 ^ 256) :
    ∃ g', g.fromDer (0x30 :: L :: d.drop 2 ++ rest) = (g', d.length) ∧ g'.status = .done ∧ beValue g'.r = r ∧ beValue g'.s = s := by
  have l1 : (beBytes 32 r).length = 32 := length_beBytes _ _
  have l2 : (beBytes 32 s).length = 32 := length_beBytes _ _
  have v1 : beValue (beBytes 32 r) = r := (beNat_beBytes 32 r).trans (Nat.mod_eq_of_lt (by norm_num at hr ⊢; exact hr))
  have v2 : beValue (beBytes 32 s) = s := (beNat_beBytes 32 s).trans (Nat.mod_eq_of_lt (by norm_num at hs ⊢; exact hs))
  have hd' := sigBytes_der _ _ l1 l2
  rw [v1, v2] at hd'
  have := derSig_unique hd hd'
  have f := Sig.fromStream_full g L _ _ rest h hL l1 l2
  have e : 0x30 :: L :: d.drop 2 ++ rest = sigBytes L (beBytes 32 r) (beBytes 32 s) ++ rest := by rw [this]; rfl
  unfold Sig.fromDer
  rw [e, f]
  have hl : d.length = (sigBytes L (beBytes 32 r) (beBytes 32 s)).length := by rw [this]; rfl
  rw [hl]
  exact ⟨_, rfl, h, v1, v2⟩

/-- Two valid encodings that differ only in the SEQUENCE length are both accepted: the first one is not DER of anything. -/
example : (({} : Sig).fromDer ([0x30, 0, 2, 1, 5, 2, 1, 7])).1.status = .done ∧
    ¬ ∃ r s, DerSig [0x30, 0, 2, 1, 5, 2, 1, 7] r s := by
  refine ⟨by decide +kernel, ?_⟩
  rintro ⟨r, s, cr, cs, -, -, h, e⟩
  simp at e
  have := congrArg UInt8.toNat e.1
  simp at this
  omega

/-- C33: a signature whose first piece has fewer than six bytes is refused at once instead of waiting for the rest: the
lengths of `r` and `s` are checked before their bytes have arrived.  (The same signature in one piece is accepted.) -/
theorem C33_pieces_refused (g : Sig) (bs : Bytes) (h : g.status = .done) (hb : bs.length < 6) :
    (g.fromStream { bytes := bs }).1.status = .failed := by
  rcases Sig.fromStream_cases g bs h with ⟨L, r, s, rest, hL, hr, hs, hbs, e⟩ | e | e
  · obtain ⟨h1, h2, h3⟩ := length_derBytes r hr
    obtain ⟨g1, g2, g3⟩ := length_derBytes s hs
    have := congrArg List.length hbs
    simp [sigBytes, h1, g1] at this
    omega
  · exact e
  · omega

example : (({} : Sig).fromStream { bytes := [0x30, 6, 2, 1, 5, 2, 1, 7] }).1.status = .done ∧
    (({} : Sig).fromStream { bytes := [0x30, 6, 2] }).1.status = .failed := by decide +kernel

/-! ### Compact form -/

/-- C34: `bin` writes `r ‖ s ‖ index` as far as the buffer reaches and leaves the rest of the buffer alone. -/
theorem C34_bin (g : Sig) (arr : Bytes) (hr : g.r.length = 32) (hs : g.s.length = 32) :
    g.bin arr = .ok ((g.r ++ g.s ++ [g.index]).take arr.length ++ arr.drop 65) := by
  unfold Sig.bin load
  dsimp only
  rw [if_pos (by omega)]
  simp only [C.bind_ok, List.drop_zero]
  by_cases h1 : arr.length ≤ 32
  · simp only [if_neg (show ¬ arr.length > 64 by omega), if_neg (show ¬ arr.length > 32 by omega)]
    unfold store
    rw [if_pos (by simp)]
    simp only [C.pure_eq, C.bind_ok, List.take_zero, List.nil_append, Nat.zero_add, C.ok.injEq]
    rw [List.drop_of_length_le (by simp; omega), List.drop_of_length_le (by omega)]
    rw [List.append_assoc, List.take_append_of_le_length (by omega), Nat.min_eq_left h1]
  · have e1 : arr = arr.take 32 ++ arr.drop 32 := (List.take_append_drop 32 arr).symm
    generalize ha : arr.drop 32 = b at e1
    have hlt : (arr.take 32).length = 32 := by simp; omega
    have hlen : arr.length = 32 + b.length := by rw [← ha]; simp; omega
    rw [Nat.min_eq_right (by omega), List.take_of_length_le (by omega : g.r.length ≤ 32)]
    have s1 : store arr 0 g.r = .ok (g.r ++ b) := by
      have := store_mid [] (arr.take 32) b g.r 0 rfl (by omega)
      rw [← e1] at this
      simpa using this
    rw [s1]
    simp only [C.bind_ok]
    rw [if_pos (show arr.length > 32 by omega), if_pos (by simp; omega)]
    simp only [C.bind_ok]
    by_cases h2 : arr.length ≤ 64
    · simp only [if_neg (show ¬ arr.length > 64 by omega)]
      have s2 := store_mid g.r b [] (g.s.take b.length) 32 hr.symm (by simp; omega)
      rw [List.append_nil, List.append_nil] at s2
      rw [hlen, show min (32 + b.length - 32) 32 = b.length by omega, s2]
      simp only [C.bind_ok, C.pure_eq, C.ok.injEq]
      rw [List.drop_of_length_le (by omega), List.append_nil, List.append_assoc, List.take_append, hr,
        List.take_of_length_le (by omega : g.r.length ≤ 32 + b.length), show 32 + b.length - 32 = b.length by omega,
        List.take_append_of_le_length (by omega)]
    · simp only [if_pos (show arr.length > 64 by omega)]
      have e2 : b = b.take 32 ++ ((b.drop 32).take 1 ++ (b.drop 32).drop 1) := by rw [List.take_append_drop, List.take_append_drop]
      have s2 := store_mid g.r (b.take 32) ((b.drop 32).take 1 ++ (b.drop 32).drop 1) g.s 32 hr.symm (by simp; omega)
      rw [← e2] at s2
      rw [show min (arr.length - 32) 32 = 32 by omega, List.take_of_length_le (by omega : g.s.length ≤ 32), s2]
      simp only [C.bind_ok]
      have s3 := store_mid (g.r ++ g.s) ((b.drop 32).take 1) ((b.drop 32).drop 1) [g.index] 64 (by simp [hr, hs]) (by simp; omega)
      rw [List.append_assoc] at s3
      rw [s3]
      congr 1
      rw [List.take_of_length_le (by simp; omega), ← ha]
      simp [List.drop_drop]

/-- C34: what `fromBin` makes of a string of 64 or more bytes. -/
theorem C34_fromBin (g : Sig) (r s rest : Bytes) (hr : r.length = 32) (hs : s.length = 32)
    (hr' : g.r.length = 32) (hs' : g.s.length = 32) :
    g.fromBin (r ++ s ++ rest) = .ok { g with r := r, s := s, index := rest.headD g.index } := by
  unfold Sig.fromBin
  dsimp only
  have hl : (r ++ s ++ rest).length = 64 + rest.length := by simp [hr, hs]; omega
  have ld : ∀ (a m b : Bytes), load (a ++ (m ++ b)) a.length m.length = .ok m := by
    intro a m b
    unfold load
    rw [if_pos (by simp)]
    rw [List.drop_left' rfl, List.take_left' rfl]
  have l1 := ld [] r (s ++ rest)
  have l2 := ld r s rest
  rw [List.nil_append, List.length_nil, hr] at l1
  rw [hr, hs] at l2
  have st : ∀ x y : Bytes, x.length = 32 → y.length = 32 → store x 0 y = .ok y := by
    intro x y hx hy
    have := store_mid [] x [] y 0 rfl (by omega)
    simpa using this
  rw [hl, show min (64 + rest.length) 32 = 32 by omega, List.append_assoc, l1]
  simp only [C.bind_ok, st g.r r hr' hr]
  rw [if_pos (by omega), show min (64 + rest.length - 32) 32 = 32 by omega, l2]
  simp only [C.bind_ok, st g.s s hs' hs]
  cases rest with
  | nil => rw [if_neg (by simp)]; rfl
  | cons c rest =>
    rw [if_pos (by simp)]
    have l3 := ld (r ++ s) [c] rest
    rw [List.append_assoc] at l3
    have hrs : (r ++ s).length = 64 := by simp [hr, hs]
    rw [hrs] at l3
    simp only [List.cons_append, List.nil_append, List.length_singleton] at l3
    rw [l3]
    rfl

/-- C34: writing a signature to a buffer of at least 64 bytes and reading it back into any signature object gives `r` and `s`
back; with at least 65 bytes the recovery index too. -/
theorem C34_roundtrip (g g' : Sig) (arr : Bytes) (hr : g.r.length = 32) (hs : g.s.length = 32)
    (hr' : g'.r.length = 32) (hs' : g'.s.length = 32) (ha : 64 ≤ arr.length) :
    ∃ b g'', g.bin arr = .ok b ∧ b.length = arr.length ∧ g'.fromBin b = .ok g'' ∧ g''.r = g.r ∧ g''.s = g.s ∧
      (65 ≤ arr.length → g''.index = g.index) ∧ (arr.length = 64 → g''.index = g'.index) := by
  have e : List.take arr.length (g.r ++ g.s ++ [g.index]) ++ arr.drop 65 = g.r ++ g.s ++ ([g.index].take (arr.length - 64) ++ arr.drop 65) := by
    rw [List.take_append, List.take_of_length_le (by simp [hr, hs]; omega)]
    simp [hr, hs]
  refine ⟨_, { g' with r := g.r, s := g.s, index := ([g.index].take (arr.length - 64) ++ arr.drop 65).headD g'.index },
    C34_bin g arr hr hs, by simp [hr, hs]; omega, ?_⟩
  rw [e]
  refine ⟨C34_fromBin g' _ _ _ hr hs hr' hs', rfl, rfl, ?_, ?_⟩
  · intro h
    obtain ⟨k, hk⟩ : ∃ k, arr.length - 64 = k + 1 := ⟨arr.length - 65, by omega⟩
    rw [hk]; rfl
  · intro h
    rw [h, Nat.sub_self, List.drop_of_length_le (by omega)]; rfl

example : ∃ g : Sig, g.r.length = 32 ∧ g.s.length = 32 ∧ g.r ≠ g.s ∧ g.index = 1 :=
  ⟨{ r := 0x80 :: zeros 31, s := 0x7f :: zeros 31, index := 1 }, by decide +kernel⟩

namespace SchnorrSig

/-- C34: a Schnorr signature is written as `r ‖ s`. -/
theorem C34_schnorr_toStream (g : SchnorrSig) (hr : g.r.length = 32) (hs : g.s.length = 32) (cap : Option Nat) (off : Nat) :
    g.toStream cap off = .ok (window cap off (g.r ++ g.s)) := by
  unfold toStream
  have := Ser.emit_after cap off [] (g.r ++ g.s) 0 64 rfl (by simp [hr, hs])
  rw [← Ser.after_nil cap off]
  simp only [this, C.bind_ok]
  rfl

/-- The object after the bytes `p` of a signature have arrived. -/
structure Got (g : SchnorrSig) (p : Bytes) : Prop where
  r : g.r.length = 32
  s : g.s.length = 32
  parsed : g.bytesParsed = p.length
  bytes : g.r ++ g.s = p ++ zeros (64 - p.length)
  short : p.length ≤ 64
  status : g.status = if p.length = 64 then .done else .incomplete

theorem read_step (g : SchnorrSig) (p c rest : Bytes) (h : g.Got p) (hp : p.length < 64) (hc : p.length + c.length ≤ 64)
    (hrest : rest = [] ∨ p.length + c.length = 64) :
    ∃ g', g.fromStream { bytes := c ++ rest } = (g', c.length, { bytes := rest }) ∧ g'.Got (p ++ c) := by
  obtain ⟨h1, h2, h3, h4, h5, h6⟩ := h
  rw [if_neg (by omega)] at h6
  unfold fromStream
  rw [if_neg (by rw [h6]; simp)]
  simp only [h6, reduceCtorEq, if_false]
  unfold PStream.readN
  simp only [Bool.false_eq_true, if_false, List.append_nil, h3]
  have st : ∀ (a m b d : Bytes), m.length = d.length → (if d = [] then C.ok (a ++ (m ++ b)) else store (a ++ (m ++ b)) a.length d) = .ok (a ++ (d ++ b)) := by
    intro a m b d hl
    split_ifs with hd
    · subst hd; simp at hl; subst hl; rfl
    · exact store_mid a m b d _ rfl hl
  by_cases hlt : p.length ≤ 32
  · -- the first bytes belong to `r`
    have hr : g.r = p ++ zeros (32 - p.length) ∧ g.s = zeros 32 := by
      have e : p ++ zeros (64 - p.length) = (p ++ zeros (32 - p.length)) ++ zeros 32 := by
        rw [List.append_assoc]; unfold zeros; rw [List.replicate_append_replicate]; congr 2; omega
      rw [e] at h4
      exact List.append_inj h4 (by simp; omega)
    obtain ⟨hr, hs⟩ := hr
    by_cases hc32 : p.length + c.length ≤ 32
    · have hrest' : rest = [] := by
        rcases hrest with h | h
        · exact h
        · omega
      subst hrest'
      rw [List.append_nil, List.take_of_length_le (by omega : c.length ≤ 32 - p.length), List.drop_of_length_le (by omega : c.length ≤ 32 - p.length)]
      simp only [List.take_nil, List.drop_nil, if_true]
      have e : zeros (32 - p.length) = zeros c.length ++ zeros (32 - p.length - c.length) := by
        unfold zeros; rw [List.replicate_append_replicate]; congr 1; omega
      rw [hr, e, st _ _ _ _ (by simp)]
      simp only [List.length_nil, Nat.add_zero]
      refine ⟨_, rfl, ?_, h2, ?_, ?_, ?_, ?_⟩
      · simp; omega
      · simp
      · simp only [hs]
        have e' : zeros (64 - (p ++ c).length) = zeros (32 - p.length - c.length) ++ zeros 32 := by
          unfold zeros; rw [List.replicate_append_replicate]; congr 1; simp; omega
        rw [e']; simp
      · simp; omega
      · simp [show ¬ p.length + c.length = 64 by omega]
    · have hl1 : (c.take (32 - p.length)).length = 32 - p.length := by simp; omega
      have e1 : c = c.take (32 - p.length) ++ c.drop (32 - p.length) := (List.take_append_drop _ _).symm
      generalize c.take (32 - p.length) = c1 at *
      generalize c.drop (32 - p.length) = c2 at *
      subst e1
      rw [List.append_assoc, List.take_left' hl1, List.drop_left' hl1]
      have s1 := st p (zeros (32 - p.length)) [] c1 (by simp [hl1])
      simp only [List.append_nil] at s1
      rw [hr, s1]
      simp only [List.length_append] at hc hc32 hrest
      have hl2 : p.length + c1.length = 32 := by omega
      simp only [hl2, Nat.lt_irrefl, if_false, Nat.sub_self]
      have hk : (c2 ++ rest).take (64 - 32) = c2 ∧ (c2 ++ rest).drop (64 - 32) = rest := by
        rcases hrest with h | h
        · subst h
          simp; omega
        · exact ⟨List.take_left' (by omega), List.drop_left' (by omega)⟩
      rw [hk.1, hk.2]
      have s2 := st [] (zeros c2.length) (zeros (32 - c2.length)) c2 (by simp)
      have ez : zeros 32 = zeros c2.length ++ zeros (32 - c2.length) := by
        unfold zeros; rw [List.replicate_append_replicate]; congr 1; omega
      simp only [List.nil_append, List.length_nil, ← ez] at s2
      rw [hs, s2]
      rw [← List.length_append]
      refine ⟨_, rfl, ?_, ?_, ?_, ?_, ?_, ?_⟩
      · simp; omega
      · simp; omega
      · simp
      · simp only [List.append_assoc, List.length_append]
        rw [show 64 - (p.length + (c1.length + c2.length)) = 32 - c2.length by omega]
      · simp; omega
      · simp
  · have hr : g.r = p.take 32 ∧ g.s = p.drop 32 ++ zeros (64 - p.length) := by
      have e : p ++ zeros (64 - p.length) = p.take 32 ++ (p.drop 32 ++ zeros (64 - p.length)) := by
        rw [← List.append_assoc, List.take_append_drop]
      rw [e] at h4
      exact List.append_inj h4 (by simp; omega)
    obtain ⟨hr, hs⟩ := hr
    rw [show 32 - p.length = 0 by omega]
    simp only [List.take_zero, if_true, List.drop_zero, List.length_nil, Nat.add_zero, if_neg (show ¬ p.length < 32 by omega)]
    have hk : (c ++ rest).take (64 - p.length) = c ∧ (c ++ rest).drop (64 - p.length) = rest := by
      rcases hrest with h | h
      · subst h
        simp; omega
      · exact ⟨List.take_left' (by omega), List.drop_left' (by omega)⟩
    rw [hk.1, hk.2]
    have s2 := st (p.drop 32) (zeros c.length) (zeros (64 - p.length - c.length)) c (by simp)
    have ez : zeros (64 - p.length) = zeros c.length ++ zeros (64 - p.length - c.length) := by
      unfold zeros; rw [List.replicate_append_replicate]; congr 1; omega
    rw [← ez, List.length_drop] at s2
    rw [hs, s2]
    simp only [Nat.zero_add]
    refine ⟨_, rfl, h1, ?_, ?_, ?_, ?_, ?_⟩
    · simp; omega
    · simp
    · simp only [hr, List.length_append]
      rw [← List.append_assoc, List.take_append_drop, List.append_assoc, Nat.sub_sub]
    · simp; omega
    · simp

/-- Handing the pieces of a byte string to `from_stream` one after the other. -/
def feed : SchnorrSig → List Bytes → SchnorrSig
  | g, [] => g
  | g, c :: cs => feed (g.fromStream { bytes := c }).1 cs

theorem feed_got (g : SchnorrSig) (p : Bytes) (cs : List Bytes) (h : g.Got p) (hc : ∀ c ∈ cs, c ≠ [])
    (hp : p.length < 64 ∨ cs = []) (hl : p.length + cs.flatten.length = 64) : (feed g cs).Got (p ++ cs.flatten) := by
  induction cs generalizing g p with
  | nil => simpa [feed] using h
  | cons c cs ih =>
    rcases hp with hp | hp
    swap
    · simp at hp
    simp only [List.flatten_cons, List.length_append] at hl
    obtain ⟨g', e, hg⟩ := read_step g p c [] h hp (by omega) (.inl rfl)
    rw [List.append_nil] at e
    unfold feed
    rw [e]
    have := ih g' (p ++ c) hg (fun x hx => hc x (List.mem_cons_of_mem _ hx)) ?_ (by rw [List.length_append]; omega)
    · simpa using this
    · cases cs with
      | nil => right; rfl
      | cons d cs =>
        left
        have : d ≠ [] := hc d (by simp)
        have : 0 < d.length := List.length_pos_iff.mpr this
        simp only [List.flatten_cons, List.length_append] at hl ⊢
        omega

theorem start_got (g : SchnorrSig) (h : g.status = .done) : ({ status := .incomplete } : SchnorrSig).Got [] ∧
    ∀ bs, g.fromStream { bytes := bs } = ({ status := .incomplete } : SchnorrSig).fromStream { bytes := bs } := by
  refine ⟨⟨by simp, by simp, rfl, by decide +kernel, by simp, rfl⟩, fun bs => ?_⟩
  unfold fromStream
  simp [h]

/-- C34: a Schnorr signature arriving in any pieces is read back exactly. -/
theorem C34_schnorr_roundtrip (g : SchnorrSig) (r s : Bytes) (cs : List Bytes) (h : g.status = .done) (hr : r.length = 32)
    (hs : s.length = 32) (hc : ∀ c ∈ cs, c ≠ []) (hcs : cs.flatten = r ++ s) :
    (feed g cs).status = .done ∧ (feed g cs).r = r ∧ (feed g cs).s = s := by
  have hl : cs.flatten.length = 64 := by rw [hcs]; simp [hr, hs]
  obtain ⟨h0, h1⟩ := start_got g h
  have e : feed g cs = feed { status := .incomplete } cs := by
    cases cs with
    | nil => simp at hl
    | cons c cs => unfold feed; rw [h1]
  have := feed_got _ [] cs h0 hc (.inl (by simp)) (by simpa using hl)
  rw [← e, List.nil_append, hcs] at this
  have hb := this.bytes
  have hl' : (r ++ s).length = 64 := by simp [hr, hs]
  rw [hl', Nat.sub_self] at hb
  have hb' : (feed g cs).r ++ (feed g cs).s = r ++ s := by simpa [zeros] using hb
  obtain ⟨a, b⟩ := List.append_inj hb' (by rw [this.r, hr])
  refine ⟨?_, a, b⟩
  have := this.status
  rwa [if_pos hl'] at this

example : ∃ (r s : Bytes) (cs : List Bytes), r.length = 32 ∧ s.length = 32 ∧ r ≠ s ∧ (∀ c ∈ cs, c ≠ []) ∧ cs.flatten = r ++ s ∧ cs.length = 3 :=
  ⟨List.replicate 32 1, List.replicate 32 2, [List.replicate 10 1, List.replicate 22 1 ++ [2, 2], List.replicate 30 2], by decide +kernel⟩

/-- C34: reading is exact about what it consumes: bytes after the signature stay in the stream. -/
theorem C34_schnorr_rest (g : SchnorrSig) (r s rest : Bytes) (h : g.status = .done) (hr : r.length = 32) (hs : s.length = 32) :
    ∃ g', g.fromStream { bytes := r ++ s ++ rest } = (g', 64, { bytes := rest }) ∧ g'.status = .done ∧ g'.r = r ∧ g'.s = s := by
  obtain ⟨h0, h1⟩ := start_got g h
  have hl' : (r ++ s).length = 64 := by simp [hr, hs]
  obtain ⟨g', e, hg⟩ := read_step _ [] (r ++ s) rest h0 (by simp) (by simp [hl']) (.inr (by simpa using hl'))
  rw [h1, e, hl']
  refine ⟨g', rfl, ?_, ?_⟩
  · have := hg.status
    rwa [List.nil_append, if_pos hl'] at this
  · have hb := hg.bytes
    rw [List.nil_append, hl', Nat.sub_self] at hb
    have hb' : g'.r ++ g'.s = r ++ s := by simpa [zeros] using hb
    exact List.append_inj hb' (by rw [hg.r, hr])

end SchnorrSig

end UB
