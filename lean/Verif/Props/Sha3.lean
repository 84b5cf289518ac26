import Verif.Lemmas.Sha3Stream
import Verif.Props.Hash
import Verif.Props.Script

/-
C95: SHA-3 and the hashers of the trezor code.
-/

namespace UB
open Spec

namespace Sha3

/-- Feeding pieces, each with the alignment of its memory. -/
def updates (c : Ctx) : List (Bool × Bytes) → C Ctx
  | [] => .ok c
  | p :: ps => do
    let c ← update p.1 c p.2
    updates c ps

theorem rep_updates (rate : Nat) (hr : Rate rate) (pieces : List (Bool × Bytes)) : ∀ (c : Ctx) (m : Bytes), Rep rate c m →
    ∃ c', updates c pieces = .ok c' ∧ Rep rate c' (m ++ (pieces.map (·.2)).flatten) := by
  induction pieces with
  | nil => intro c m h; exact ⟨c, rfl, by simpa using h⟩
  | cons p ps ih =>
    intro c m h
    obtain ⟨c1, e1, r1⟩ := rep_update p.1 rate hr c m p.2 h
    obtain ⟨c2, e2, r2⟩ := ih c1 _ r1
    refine ⟨c2, ?_, by simpa using r2⟩
    rw [updates, e1, C.bind_ok, e2]

theorem rate_of {bits : Nat} (hb : bits ∈ [224, 256, 384, 512]) : ∃ rate, Rate rate ∧ 1600 - bits * 2 = rate * 8 := by
  simp only [List.mem_cons, List.not_mem_nil, or_false] at hb
  unfold Rate
  rcases hb with rfl | rfl | rfl | rfl
  · exact ⟨144, by omega, rfl⟩
  · exact ⟨136, by omega, rfl⟩
  · exact ⟨104, by omega, rfl⟩
  · exact ⟨72, by omega, rfl⟩

end Sha3

/-- `sha3_224_Init` to `sha3_512_Init`, any calls of `sha3_Update` with pieces of any sizes in memory of any alignment, and `sha3_Final` give SHA-3 (FIPS 202) of
the concatenation; the context is wiped. -/
theorem C95_sha3_pieces (bits : Nat) (hb : bits ∈ [224, 256, 384, 512]) (pieces : List (Bool × Bytes)) :
    (do let c ← Sha3.init bits
        let c ← Sha3.updates c pieces
        Sha3.final c) = .ok (Sha3.Ctx.zero, Spec.Sha3.hash bits (pieces.map (·.2)).flatten) := by
  obtain ⟨rate, hr, he⟩ := Sha3.rate_of hb
  obtain ⟨c, e1, r1⟩ := Sha3.rep_init bits rate hr he
  obtain ⟨c2, e2, r2⟩ := Sha3.rep_updates rate hr pieces c [] r1
  rw [e1, C.bind_ok, e2, C.bind_ok, Sha3.final_eq bits rate hr he c2 _ r2, List.nil_append]

example : (do let c ← Sha3.init 256
              let c ← Sha3.updates c [(true, [0x61]), (false, []), (false, [0x62, 0x63])]
              Sha3.final c) = .ok (Sha3.Ctx.zero, Spec.Sha3.hash 256 [0x61, 0x62, 0x63]) := C95_sha3_pieces 256 (by decide) _

/-- The standard's value for the empty message. -/
example : Spec.Sha3.hash 256 [] = [0xa7, 0xff, 0xc6, 0xf8, 0xbf, 0x1e, 0xd7, 0x66, 0x51, 0xc1, 0x47, 0x56, 0xa0, 0x61, 0xd6, 0x62,
    0xf5, 0x80, 0xff, 0x4d, 0xe4, 0x3b, 0x49, 0xfa, 0x82, 0xd8, 0x0a, 0x4b, 0x80, 0xf8, 0x43, 0x4a] := by decide +kernel

/-- The lengths of the digests. -/
theorem C95_sha3_length (bits : Nat) (hb : bits ∈ [224, 256, 384, 512]) (m : Bytes) : (Spec.Sha3.hash bits m).length = bits / 8 := by
  obtain ⟨rate, hr, he⟩ := Sha3.rate_of hb
  have hp := hr.pos
  have key : ∀ (bl : List Bytes) (s : List UInt64), s.length = 25 → (∀ b ∈ bl, b.length = rate) → (bl.foldl Spec.Sha3.absorb s).length = 25 := by
    intro bl
    induction bl with
    | nil => intro s h _; exact h
    | cons b bl ih =>
      intro s h hbl
      rw [List.foldl_cons]
      refine ih _ ?_ (fun x hx => hbl x (List.mem_cons_of_mem _ hx))
      have hl := hbl b List.mem_cons_self
      have := (Sha3.processBlock_eq s b rate hr h (by omega)).2
      rwa [List.take_of_length_le (by omega)] at this
  unfold Spec.Sha3.hash
  dsimp only
  rw [show (1600 - 2 * bits) / 8 = rate by omega, List.length_take]
  have hs : ∀ s : List UInt64, (Spec.Sha3.stateBytes s).length = 8 * s.length := by
    intro s
    induction s with
    | nil => rfl
    | cons w s ih => simp only [Spec.Sha3.stateBytes, List.map_cons, List.flatten_cons, List.length_append, List.length_cons, length_leBytes] at ih ⊢; omega
  rw [hs, key]
  · simp only [List.mem_cons, List.not_mem_nil, or_false] at hb; omega
  · rfl
  · intro b hbm
    unfold chunks at hbm
    rw [List.mem_map] at hbm
    obtain ⟨i, hi, rfl⟩ := hbm
    rw [List.mem_range] at hi
    rw [List.length_take, List.length_drop, Nat.min_eq_left]
    have h1 : (i + 1) * rate ≤ _ / rate * rate := Nat.mul_le_mul_right rate hi
    have h2 := Nat.le_trans h1 (Nat.div_mul_le_self _ _)
    rw [Nat.succ_mul] at h2
    omega

/-- The flag for finalised contexts protects nothing: `sha3_Final` also clears it, and the block size.  A further `sha3_Update` divides by zero, a further
`sha3_Final` writes before the array. -/
theorem C95_after_final (al : Bool) (m : Bytes) : Sha3.update al Sha3.Ctx.zero m = .ub ∧ Sha3.final Sha3.Ctx.zero = .ub := ⟨rfl, rfl⟩

/-! ### hasher.c -/

/-- What a hasher computes (32 bytes). -/
def HasherType.digest : HasherType → Bytes → Bytes
  | .sha2, m => Spec.sha256 m
  | .sha2d, m => Spec.hash256 m
  | .sha2Ripemd, m => Spec.hash160 m ++ (Spec.sha256 m).drop 20
  | .sha3, m => Spec.Sha3.hash 256 m

namespace Hasher

def updates (h : Hasher) : List (Bool × Bytes) → C Hasher
  | [] => .ok h
  | p :: ps => do
    let h ← update p.1 h p.2
    updates h ps

/-- The SHA-2 context of a hasher. -/
theorem updates_sha2 (mk : Sha2Ctx UInt32 UInt64 → Hasher) (hmk : ∀ al c d, update al (mk c) d = .ok (mk (sha256Code.update c d))) (pieces : List (Bool × Bytes)) :
    ∀ c, updates (mk c) pieces = .ok (mk ((pieces.map (·.2)).foldl sha256Code.update c)) := by
  induction pieces with
  | nil => intro c; rfl
  | cons p ps ih => intro c; rw [updates, hmk, C.bind_ok, ih]; rfl

theorem updates_sha3 (pieces : List (Bool × Bytes)) : ∀ c, updates (.sha3 c) pieces = (Sha3.updates c pieces >>= fun c => .ok (.sha3 c)) := by
  induction pieces with
  | nil => intro c; rfl
  | cons p ps ih =>
    intro c
    rw [updates, Sha3.updates]
    show ((Sha3.update p.1 c p.2 >>= fun x => pure (Hasher.sha3 x)) >>= _) = _
    cases e : Sha3.update p.1 c p.2 with
    | ub => rfl
    | ok c1 => exact ih c1

theorem type_update (al : Bool) (h h' : Hasher) (d : Bytes) (e : update al h d = .ok h') : h'.type = h.type := by
  cases h with
  | sha3 c =>
    have e' : (Sha3.update al c d >>= fun x => (pure (Hasher.sha3 x) : C Hasher)) = .ok h' := e
    cases e1 : Sha3.update al c d with
    | ub => rw [e1] at e'; exact absurd e' (by simp)
    | ok c1 =>
      rw [e1] at e'
      have : Hasher.sha3 c1 = h' := C.ok.inj e'
      rw [← this]; rfl
  | _ c =>
    have := C.ok.inj e
    rw [← this]; rfl

theorem type_updates (pieces : List (Bool × Bytes)) : ∀ h h' : Hasher, updates h pieces = .ok h' → h'.type = h.type := by
  induction pieces with
  | nil => intro h h' e; rw [C.ok.inj e]
  | cons p ps ih =>
    intro h h' e
    rw [updates] at e
    cases e1 : update p.1 h p.2 with
    | ub => rw [e1] at e; exact absurd e (by simp)
    | ok h1 => rw [e1, C.bind_ok] at e; rw [ih h1 h' e, type_update p.1 h h1 p.2 e1]

theorem type_init (t : HasherType) : ∃ h, init t = .ok h ∧ h.type = t := by cases t <;> exact ⟨_, rfl, rfl⟩

end Hasher

theorem sha256_pieces (pieces : List Bytes) (h : pieces.flatten.length < 2 ^ 61) :
    (sha256Code.final (pieces.foldl sha256Code.update sha256Code.init)).2 = Spec.sha256 pieces.flatten := by
  have := Sha2Code.rep_updates sha256Ok sha256Count pieces _ [] (Sha2Code.rep_init sha256Ok sha256Count) (by simpa using h)
  exact Sha2Code.final_spec sha256Ok sha256Count _ _ this (by simpa using h)

/-- `hasher_Init`, any calls of `hasher_Update`, `hasher_Final`: SHA-256, double SHA-256, HASH160 (with 12 bytes of SHA-256 behind it) or SHA3-256 of the concatenation. -/
theorem C95_hasher_pieces (t : HasherType) (pieces : List (Bool × Bytes)) (hl : (pieces.map (·.2)).flatten.length < 2 ^ 61) :
    (do let h ← Hasher.init t
        let h ← Hasher.updates h pieces
        h.final) = .ok (t.digest (pieces.map (·.2)).flatten) := by
  have h2 := sha256_pieces (pieces.map (·.2)) hl
  cases t with
  | sha2 =>
    show (Hasher.updates (.sha2 sha256Code.init) pieces >>= _) = _
    rw [Hasher.updates_sha2 .sha2 (fun _ _ _ => rfl), C.bind_ok]
    exact congrArg C.ok h2
  | sha2d =>
    show (Hasher.updates (.sha2d sha256Code.init) pieces >>= _) = _
    rw [Hasher.updates_sha2 .sha2d (fun _ _ _ => rfl), C.bind_ok]
    show C.ok (sha256Code.final (sha256Code.update sha256Code.init (sha256Code.final _).2)).2 = _
    rw [h2]
    exact congrArg C.ok (sha256_eq _ (by rw [length_sha256]; norm_num))
  | sha2Ripemd =>
    show (Hasher.updates (.sha2Ripemd sha256Code.init) pieces >>= _) = _
    rw [Hasher.updates_sha2 .sha2Ripemd (fun _ _ _ => rfl), C.bind_ok]
    show C.ok (rmd160 (sha256Code.final _).2 ++ (sha256Code.final _).2.drop 20) = _
    rw [h2, rmd160_eq _ (by rw [length_sha256]; norm_num)]
    rfl
  | sha3 =>
    have h3 := C95_sha3_pieces 256 (by decide) pieces
    cases e : Sha3.init 256 with
    | ub => rw [e] at h3; exact absurd h3 (by simp)
    | ok c =>
      rw [e, C.bind_ok] at h3
      show ((Sha3.init 256 >>= fun c => pure (Hasher.sha3 c)) >>= _) = _
      rw [e, C.bind_ok, C.pure_eq, C.bind_ok, Hasher.updates_sha3]
      cases e2 : Sha3.updates c pieces with
      | ub => rw [e2] at h3; exact absurd h3 (by simp)
      | ok c2 =>
        rw [e2, C.bind_ok] at h3
        rw [C.bind_ok, C.bind_ok]
        show (Sha3.final c2 >>= fun r => pure r.2) = _
        rw [h3, C.bind_ok]
        rfl

/-- `hasher_Raw` is the same in one call. -/
theorem C95_hasher_raw (t : HasherType) (al : Bool) (m : Bytes) (hl : m.length < 2 ^ 61) : Hasher.raw t al m = .ok (t.digest m) := by
  have h := C95_hasher_pieces t [(al, m)] (by simpa using hl)
  rw [show ([(al, m)].map (·.2)).flatten = m by simp] at h
  rw [← h]
  unfold Hasher.raw
  obtain ⟨h0, e0, _⟩ := Hasher.type_init t
  rw [e0, C.bind_ok, C.bind_ok]
  show _ = ((Hasher.update al h0 m >>= fun h => .ok h) >>= _)
  cases Hasher.update al h0 m <;> rfl

/-- `hasher_Reset` forgets everything fed before. -/
theorem C95_hasher_reset (t : HasherType) (before pieces : List (Bool × Bytes)) (hb : (before.map (·.2)).flatten.length < 2 ^ 61) (hl : (pieces.map (·.2)).flatten.length < 2 ^ 61) :
    (do let h ← Hasher.init t
        let h ← Hasher.updates h before
        let h ← h.reset
        let h ← Hasher.updates h pieces
        h.final) = .ok (t.digest (pieces.map (·.2)).flatten) := by
  have h1 := C95_hasher_pieces t before hb
  have h2 := C95_hasher_pieces t pieces hl
  obtain ⟨h0, e0, t0⟩ := Hasher.type_init t
  rw [e0, C.bind_ok] at h1 h2 ⊢
  cases e1 : Hasher.updates h0 before with
  | ub => rw [e1] at h1; exact absurd h1 (by simp)
  | ok ha =>
    rw [C.bind_ok, Hasher.reset, Hasher.type_updates before h0 ha e1, t0, e0, C.bind_ok]
    exact h2

example : Hasher.raw .sha3 false [0x61] = .ok (Spec.Sha3.hash 256 [0x61]) := C95_hasher_raw .sha3 false _ (by decide)
example : (do let h ← Hasher.init .sha2Ripemd
              let h ← Hasher.updates h [(false, [1, 2, 3])]
              let h ← h.reset
              let h ← Hasher.updates h [(true, [0x61]), (false, [0x62])]
              h.final) = .ok (Spec.hash160 [0x61, 0x62] ++ (Spec.sha256 [0x61, 0x62]).drop 20) := C95_hasher_reset .sha2Ripemd [(false, [1, 2, 3])] _ (by decide) (by decide)

/-- A digest always fills the 32 bytes. -/
theorem C95_hasher_length (t : HasherType) (m : Bytes) : (t.digest m).length = 32 := by
  cases t with
  | sha2 => exact length_sha256 m
  | sha2d => exact length_sha256 _
  | sha2Ripemd =>
    show (Spec.hash160 m ++ _).length = 32
    have : (Spec.hash160 m).length = 20 := length_ripemd160 _
    rw [List.length_append, List.length_drop, length_sha256, this]
  | sha3 => exact C95_sha3_length 256 (by decide) m

end UB
