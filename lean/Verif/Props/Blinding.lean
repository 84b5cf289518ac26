import Verif.Props.HDDerive
import Verif.Props.PSBTSign
import Verif.Props.Electrum
import Verif.Props.Payment
import Verif.Props.Schnorr
import Verif.Props.Keys
import Verif.Props.PointOps

/-
C111: the random numbers which the curve code draws against side channels show in no result.
-/

namespace UB
open Spec BN

/-! ### Lengths -/

theorem length_of_load {b r : Bytes} {off n : Nat} (h : load b off n = .ok r) : r.length = n := by
  unfold load at h
  split_ifs at h with hl
  obtain rfl := C.ok.inj h
  rw [List.length_take, List.length_drop]
  omega

theorem length_final (x : Sha2Ctx UInt32 UInt64) : (sha256Code.final x).2.length = 32 := by
  obtain ⟨a, b, c, d, e, f, g, h, hs⟩ : ∃ a b c d e f g h : UInt32, (sha256Code.final x).2 = sha256Code.memWords [a, b, c, d, e, f, g, h] := ⟨_, _, _, _, _, _, _, _, rfl⟩
  rw [hs]
  rfl

/-- The object computes a double hash. -/
def HashObj.IsDouble (h : HashObj) : Prop := ∃ c, h = .double c

theorem HashObj.IsDouble.write {h : HashObj} (hd : h.IsDouble) (b : Bytes) : (h.write b).IsDouble := by
  obtain ⟨c, rfl⟩ := hd
  exact ⟨_, rfl⟩

theorem HashObj.IsDouble.fold {bs : Bytes} : ∀ {h : HashObj}, h.IsDouble → (bs.foldl HashObj.writeByte h).IsDouble := by
  induction bs with
  | nil => exact fun h => h
  | cons b bs ih => exact fun h => ih (h.write [b])

theorem HashObj.IsDouble.length {h : HashObj} (hd : h.IsDouble) : h.fin.length = 32 := by
  obtain ⟨c, rfl⟩ := hd
  exact length_final _

theorem bind_eq_ok {α β : Type} {x : C α} {f : α → C β} {r : β} (h : x >>= f = .ok r) : ∃ a, x = .ok a ∧ f a = .ok r := by
  cases x with
  | ub => cases h
  | ok a => exact ⟨a, rfl, h⟩

theorem HashObj.IsDouble.writeInt {h g : HashObj} (hd : h.IsDouble) {n : UInt64} {k : Nat} (e : h.writeInt n k = .ok g) : g.IsDouble := by
  obtain ⟨a, -, e⟩ := bind_eq_ok e
  obtain rfl := C.ok.inj e
  exact hd.write a

theorem HashObj.IsDouble.writeCount {h g : HashObj} (hd : h.IsDouble) {n : Nat} (e : h.writeCount n = .ok g) : g.IsDouble := by
  obtain ⟨a, -, e⟩ := bind_eq_ok e
  obtain rfl := C.ok.inj e
  exact hd.write _

theorem HashObj.IsDouble.feed {h g : HashObj} (hd : h.IsDouble) {f : Option Nat → Nat → C Bytes} (e : h.feed f = .ok g) : g.IsDouble := by
  obtain ⟨a, -, e⟩ := bind_eq_ok e
  obtain rfl := C.ok.inj e
  exact hd.fold

theorem HashObj.IsDouble.feedAll {fs : List (Option Nat → Nat → C Bytes)} : ∀ {h g : HashObj}, h.IsDouble → h.feedAll fs = .ok g → g.IsDouble := by
  induction fs with
  | nil =>
    intro h g hd e
    obtain rfl := C.ok.inj e
    exact hd
  | cons f fs ih =>
    intro h g hd e
    obtain ⟨a, e1, e2⟩ := bind_eq_ok e
    exact ih (hd.feed e1) e2

theorem isDouble_new : newDoubleSha.IsDouble := ⟨_, rfl⟩

theorem Tx.length_sigHash {t : Tx} {i : UInt8} {sc : Script} {ty : UInt32} {h : Bytes} (e : t.sigHash i sc ty = .ok h) : h.length = 32 := by
  unfold Tx.sigHash at e
  obtain ⟨s, e1, e⟩ := bind_eq_ok e
  have h1 := isDouble_new.writeInt e1
  obtain ⟨s, e1, e⟩ := bind_eq_ok e
  have h1 := h1.writeCount e1
  obtain ⟨s, e1, e⟩ := bind_eq_ok e
  have h1 := h1.feedAll e1
  obtain ⟨s, e1, e⟩ := bind_eq_ok e
  have h1 := h1.writeCount e1
  obtain ⟨s, e1, e⟩ := bind_eq_ok e
  have h1 := h1.feedAll e1
  obtain ⟨s, e1, e⟩ := bind_eq_ok e
  have h1 := h1.writeInt e1
  obtain ⟨s, e1, e⟩ := bind_eq_ok e
  have h1 := h1.writeInt e1
  obtain rfl := C.ok.inj e
  exact h1.length

theorem Tx.length_sigHashSegwit {t : Tx} {i : UInt8} {sc : Script} {amount : UInt64} {ty : UInt32} {h : Bytes} (e : t.sigHashSegwit i sc amount ty = .ok h) : h.length = 32 := by
  unfold Tx.sigHashSegwit at e
  obtain ⟨s, e1, e⟩ := bind_eq_ok e
  have h1 := isDouble_new.writeInt e1
  obtain ⟨b, -, e⟩ := bind_eq_ok e
  have h1 := h1.write b
  obtain ⟨b, -, e⟩ := bind_eq_ok e
  have h1 := h1.write b
  cases hi : t.txIns[i.toNat]? with
  | none => rw [hi] at e; cases e
  | some ti =>
    rw [hi] at e
    have h1 := h1.write ti.hash
    obtain ⟨s, e1, e⟩ := bind_eq_ok e
    have h1 := h1.writeInt e1
    obtain ⟨s, e1, e⟩ := bind_eq_ok e
    have h1 := h1.feed e1
    obtain ⟨s, e1, e⟩ := bind_eq_ok e
    have h1 := h1.writeInt e1
    obtain ⟨s, e1, e⟩ := bind_eq_ok e
    have h1 := h1.writeInt e1
    obtain ⟨b, -, e⟩ := bind_eq_ok e
    have h1 := h1.write b
    obtain ⟨s, e1, e⟩ := bind_eq_ok e
    have h1 := h1.writeInt e1
    obtain ⟨s, e1, e⟩ := bind_eq_ok e
    have h1 := h1.writeInt e1
    obtain rfl := C.ok.inj e
    exact h1.length

theorem bind_congr_ok {α β : Type} {x : C α} {f g : α → C β} (h : ∀ a, x = .ok a → f a = g a) : x >>= f = x >>= g := by
  cases x with
  | ub => rfl
  | ok a => exact h a rfl

/-! ### Keys -/

theorem getPublicKey65_any {num : Bytes} (hl : num.length = 32) {z z' : BN} (hz : Blind z) (hz' : Blind z') : getPublicKey65 num z = getPublicKey65 num z' := by
  by_cases h : beNat num < secpN
  · rw [getPublicKey65_spec hl h hz, getPublicKey65_spec hl h hz']
  · rw [(C51_large_key_undefined num hl (by omega) z).2, (C51_large_key_undefined num hl (by omega) z').2]

theorem mul_generator_any {num : Bytes} (hl : num.length = 32) {z z' : BN} (hz : Blind z) (hz' : Blind z') :
    ECPoint.mul num ECPoint.generator z = ECPoint.mul num ECPoint.generator z' := by
  have h : ECPoint.generator.eq ECPoint.generator = true := by decide +kernel
  unfold ECPoint.mul
  rw [if_pos h, if_pos h, getPublicKey65_any hl hz hz']

theorem pubOf_any {num : Bytes} (hl : num.length = 32) {z z' : BN} (hz : Blind z) (hz' : Blind z') : pubOf num z = pubOf num z' := by
  unfold pubOf
  rw [mul_generator_any hl hz hz']

/-- C111, private keys from 32 bytes: the constructors and `setSecret`. -/
theorem PrivKey.C111_keys (k : PrivKey) (secret : Bytes) (hl : secret.length = 32) (compressed : Bool) (net : Network) (z z' : BN) (hz : Blind z) (hz' : Blind z') :
    ofSecret secret z compressed net = ofSecret secret z' compressed net ∧ ofScalar secret z = ofScalar secret z' ∧ k.setSecret secret z = k.setSecret secret z' := by
  unfold ofSecret ofScalar setSecret
  rw [pubOf_any hl hz hz']
  exact ⟨rfl, rfl, rfl⟩

/-- C111, extended private keys from a seed or a phrase: any seed, any phrase, also those for which the code is undefined. -/
theorem HDPriv.C111_seed (k : HDPriv) (seed mnemonic password : Bytes) (net : Network) (z z' : BN) (hz : Blind z) (hz' : Blind z') :
    k.fromSeed seed net z = k.fromSeed seed net z' ∧ k.fromMnemonic mnemonic password net z = k.fromMnemonic mnemonic password net z' := by
  have h : ∀ (k : HDPriv) seed, k.fromSeed seed net z = k.fromSeed seed net z' := by
    intro k seed
    unfold fromSeed
    refine bind_congr_ok fun num hn => bind_congr_ok fun cc _ => ?_
    rw [pubOf_any (length_of_load hn) hz hz']
  exact ⟨h _ _, by unfold fromMnemonic; exact h _ _⟩

theorem HDPriv.child_any {k : HDPriv} (hl : k.num.length = 32) (index : UInt32) (hardened : Bool) {z z' : BN} (hz : Blind z) (hz' : Blind z') :
    k.child index hardened z = k.child index hardened z' ∧ ∀ c, k.child index hardened z = .ok c → c.num.length = 32 := by
  have hs : ∀ il : Bytes, il.length = 32 → (Scalar.add (({} : ECScalar).fromStream { bytes := il }).1.num k.num).length = 32 := by
    intro il h
    exact (Scalar.C61_add _ _ (by rw [scalar_parse h, Spec.length_beBytes]) hl).1
  constructor
  · unfold child
    refine bind_congr_ok fun a _ => bind_congr_ok fun cc _ => bind_congr_ok fun il hil => ?_
    dsimp only
    rw [pubOf_any (hs il (length_of_load hil)) hz hz']
  · intro c e
    unfold child at e
    obtain ⟨a, -, e⟩ := bind_eq_ok e
    obtain ⟨cc, -, e⟩ := bind_eq_ok e
    obtain ⟨il, e1, e⟩ := bind_eq_ok e
    obtain ⟨pub, -, e⟩ := bind_eq_ok e
    obtain rfl := C.ok.inj e
    exact hs il (length_of_load e1)

theorem HDPriv.derive_any (is : List UInt32) : ∀ {k : HDPriv}, k.num.length = 32 → ∀ {rnd rnd' : Nat → BN}, (∀ n, Blind (rnd n)) → (∀ n, Blind (rnd' n)) →
    k.derive rnd is = k.derive rnd' is ∧ ∀ c, k.derive rnd is = .ok c → c.num.length = 32 := by
  induction is with
  | nil =>
    intro k hl rnd rnd' _ _
    exact ⟨rfl, fun c e => by obtain rfl := C.ok.inj e; exact hl⟩
  | cons i is ih =>
    intro k hl rnd rnd' h h'
    obtain ⟨h1, h2⟩ := child_any hl i false (h 0) (h' 0)
    constructor
    · unfold derive
      rw [← h1]
      exact bind_congr_ok fun c hc => (ih (h2 c hc) (fun n => h (n + 1)) (fun n => h' (n + 1))).1
    · intro c e
      unfold derive at e
      obtain ⟨a, e1, e⟩ := bind_eq_ok e
      exact (ih (h2 a e1) (fun n => h (n + 1)) (fun n => h' (n + 1))).2 c e

/-- C111, derivation of private keys along numbers and along the text of a path: any indexes, hardened or not, any text. -/
theorem HDPriv.C111_derive (k : HDPriv) (hl : k.num.length = 32) (index : UInt32) (hardened : Bool) (is : List UInt32) (path : Bytes) (rnd rnd' : Nat → BN)
    (h : ∀ n, Blind (rnd n)) (h' : ∀ n, Blind (rnd' n)) :
    k.child index hardened (rnd 0) = k.child index hardened (rnd' 0) ∧ k.derive rnd is = k.derive rnd' is ∧ k.derivePath path rnd = k.derivePath path rnd' := by
  refine ⟨(child_any hl index hardened (h 0) (h' 0)).1, (derive_any is hl h h').1, ?_⟩
  unfold derivePath
  refine bind_congr_ok fun o _ => ?_
  cases o with
  | none => rfl
  | some is => exact (derive_any is hl h h').1

theorem HDPub.child_any (k : HDPub) (index : UInt32) {z z' : BN} (hz : Blind z) (hz' : Blind z') : k.child index z = k.child index z' := by
  unfold child
  refine bind_congr_ok fun a _ => bind_congr_ok fun cc _ => bind_congr_ok fun il hil => ?_
  dsimp only
  rw [mul_generator_any (by rw [scalar_parse (length_of_load hil), Spec.length_beBytes]) hz hz']

theorem HDPub.derive_any (is : List UInt32) : ∀ (k : HDPub) {rnd rnd' : Nat → BN}, (∀ n, Blind (rnd n)) → (∀ n, Blind (rnd' n)) → k.derive rnd is = k.derive rnd' is := by
  induction is with
  | nil => exact fun _ _ _ _ _ => rfl
  | cons i is ih =>
    intro k rnd rnd' h h'
    unfold derive
    rw [k.child_any i (h 0) (h' 0)]
    exact bind_congr_ok fun c _ => ih c (fun n => h (n + 1)) (fun n => h' (n + 1))

/-- C111, derivation of public keys: any object, also one that is no point of the curve. -/
theorem HDPub.C111_derive (k : HDPub) (index : UInt32) (is : List UInt32) (path : Bytes) (rnd rnd' : Nat → BN) (h : ∀ n, Blind (rnd n)) (h' : ∀ n, Blind (rnd' n)) :
    k.child index (rnd 0) = k.child index (rnd' 0) ∧ k.derive rnd is = k.derive rnd' is ∧ k.derivePath path rnd = k.derivePath path rnd' := by
  refine ⟨k.child_any index (h 0) (h' 0), derive_any is k h h', ?_⟩
  unfold derivePath
  refine bind_congr_ok fun o _ => ?_
  cases o with
  | none => rfl
  | some is => exact derive_any is k h h'

/-! ### Signatures -/

/-- C111, ECDSA: the signature of a digest is the same whatever is drawn, for any 32 bytes as key. -/
theorem PrivKey.C111_sign (k : PrivKey) (hl : k.num.length = 32) (digest : Bytes) (hd : digest.length = 32) (rnd rnd' : Nat → BN × BN) (h : Draws rnd) (h' : Draws rnd') :
    k.sign digest rnd = k.sign digest rnd' := by
  unfold sign
  rw [C51_sign_exact _ _ hl hd rnd h, C51_sign_exact _ _ hl hd rnd' h']

/-- C111, inputs of transactions: any transaction object, any script, type and index. -/
theorem Tx.C111_signInput (t : Tx) (i : UInt8) (pk : PrivKey) (hl : pk.num.length = 32) (sc : Script) (ty : UInt32) (amount : UInt64) (type : ScriptType)
    (rnd rnd' : Nat → BN × BN) (h : Draws rnd) (h' : Draws rnd') :
    t.signInput i pk sc ty rnd = t.signInput i pk sc ty rnd' ∧ t.signInputKey i pk rnd = t.signInputKey i pk rnd' ∧
    t.signSegwitInput i pk sc amount type ty rnd = t.signSegwitInput i pk sc amount type ty rnd' ∧
    t.signSegwitInputKey i pk amount type rnd = t.signSegwitInputKey i pk amount type rnd' := by
  have a : ∀ sc ty, t.signInput i pk sc ty rnd = t.signInput i pk sc ty rnd' := by
    intro sc ty
    unfold signInput
    refine bind_congr_ok fun d hd => ?_
    rw [pk.C111_sign hl d (length_sigHash hd) rnd rnd' h h']
  have b : ∀ sc ty, t.signSegwitInput i pk sc amount type ty rnd = t.signSegwitInput i pk sc amount type ty rnd' := by
    intro sc ty
    unfold signSegwitInput
    refine bind_congr_ok fun d hd => ?_
    have hd' : d.length = 32 := by
      unfold segwitDigest at hd
      split_ifs at hd
      · obtain ⟨sec, -, hd⟩ := bind_eq_ok hd
        exact length_sigHashSegwit hd
      · exact length_sigHashSegwit hd
    rw [pk.C111_sign hl d hd' rnd rnd' h h']
  refine ⟨a sc ty, ?_, b sc ty, ?_⟩
  · unfold signInputKey
    exact bind_congr_ok fun sec _ => a _ _
  · unfold signSegwitInputKey
    exact bind_congr_ok fun sec _ => b _ _

/-- C111, whole payments. -/
theorem Payment.C111_pay (version locktime : UInt32) (coins : List Coin) (outs : List TxOut) (hl : ∀ c ∈ coins, c.key.num.length = 32) (rnd rnd' : Nat → Nat → BN × BN)
    (h : ∀ i, Draws (rnd i)) (h' : ∀ i, Draws (rnd' i)) : pay version locktime coins outs rnd = pay version locktime coins outs rnd' := by
  have hs : ∀ (cs : List Coin), (∀ c ∈ cs, c.key.num.length = 32) → ∀ t i, signFrom rnd t i cs = signFrom rnd' t i cs := by
    intro cs
    induction cs with
    | nil => exact fun _ _ _ => rfl
    | cons c cs ih =>
      intro hc t i
      have e : signCoin t (UInt8.ofNat i) c (rnd i) = signCoin t (UInt8.ofNat i) c (rnd' i) := by
        have hx := fun type => t.C111_signInput (UInt8.ofNat i) c.key (hc c (List.mem_cons_self ..)) {} 0 c.amount type (rnd i) (rnd' i) (h i) (h' i)
        unfold signCoin
        cases c.kind with
        | legacy => exact (hx .p2pkh).2.1
        | nested => exact (hx .p2sh_p2wpkh).2.2.2
        | segwit => exact (hx .p2wpkh).2.2.2
      unfold signFrom
      rw [e]
      exact bind_congr_ok fun r _ => ih (fun c hm => hc c (List.mem_cons_of_mem _ hm)) _ _
  unfold pay
  exact bind_congr_ok fun t _ => hs coins hl t 0

/-! ### PSBT and Electrum -/

theorem PSBT.length_digest {p : PSBT} {i : Nat} {m : InMeta} {pk : PrivKey} {h : Bytes} (e : p.digest i m pk = .ok h) : h.length = 32 := by
  unfold digest at e
  dsimp only at e
  split_ifs at e
  · exact Tx.length_sigHashSegwit e
  · obtain ⟨sc, -, e⟩ := bind_eq_ok e
    exact Tx.length_sigHashSegwit e
  · exact Tx.length_sigHash e
  · obtain ⟨sc, -, e⟩ := bind_eq_ok e
    exact Tx.length_sigHashSegwit e
  · exact Tx.length_sigHash e

/-- The key in the cache has 32 bytes. -/
def PSBT.CacheOk (c : Option (List UInt32 × HDPriv)) : Prop := ∀ x, c = some x → x.2.num.length = 32

theorem PSBT.signKey_any {root : HDPriv} (hl : root.num.length = 32) {env env' : SignEnv} (he : env.Good) (he' : env'.Good) (i j : Nat) (path : List UInt32)
    {cache : Option (List UInt32 × HDPriv)} (hc : CacheOk cache) :
    signKey root env i j path cache = signKey root env' i j path cache ∧
    ∀ r, signKey root env i j path cache = .ok r → r.1.num.length = 32 ∧ r.2.2.num.length = 32 := by
  have a : accountKey root env path cache = accountKey root env' path cache ∧ ∀ r, accountKey root env path cache = .ok r → r.2.num.length = 32 := by
    cases cache with
    | some c => exact ⟨rfl, fun r e => by obtain rfl := C.ok.inj e; exact hc _ rfl⟩
    | none =>
      obtain ⟨h1, h2⟩ := HDPriv.derive_any (path.takeWhile (fun k => decide (k ≥ hardenedIndex))) hl he.account he'.account
      constructor
      · unfold accountKey
        dsimp only
        rw [h1]
      · intro r e
        unfold accountKey at e
        obtain ⟨x, e1, e⟩ := bind_eq_ok e
        obtain rfl := C.ok.inj e
        exact h2 x e1
  have b : ∀ (pre : List UInt32) (account : HDPriv), account.num.length = 32 →
      pathKey root (env.key i j) path pre account = pathKey root (env'.key i j) path pre account ∧
      ∀ r, pathKey root (env.key i j) path pre account = .ok r → r.num.length = 32 := by
    intro pre account ha
    unfold pathKey
    split_ifs
    · exact ⟨rfl, fun r e => by cases e⟩
    · exact HDPriv.derive_any _ ha (he.key i j) (he'.key i j)
    · exact HDPriv.derive_any _ hl (he.key i j) (he'.key i j)
  constructor
  · unfold signKey
    rw [← a.1]
    refine bind_congr_ok fun r hr => ?_
    obtain ⟨pre, account⟩ := r
    dsimp only
    rw [(b pre account (a.2 _ hr)).1]
  · intro r e
    unfold signKey at e
    obtain ⟨x, e1, e⟩ := bind_eq_ok e
    obtain ⟨y, e2, e⟩ := bind_eq_ok e
    obtain rfl := C.ok.inj e
    exact ⟨(b x.1 x.2 (a.2 _ e1)).2 _ e2, a.2 _ e1⟩

theorem PSBT.signOne_any (p : PSBT) (junk : Bytes) {rnd rnd' : Nat → BN × BN} (h : Draws rnd) (h' : Draws rnd') (i : Nat) (m : InMeta) {pk : PrivKey} (hl : pk.num.length = 32) :
    p.signOne junk rnd i m pk = p.signOne junk rnd' i m pk := by
  unfold signOne
  refine bind_congr_ok fun d hd => ?_
  rw [pk.C111_sign hl d (length_digest hd) rnd rnd' h h']

theorem PSBT.signStep_any {root : HDPriv} (hl : root.num.length = 32) (fp : Bytes) {env env' : SignEnv} (he : env.Good) (he' : env'.Good) (hj : env'.junk = env.junk) (i j : Nat)
    {st : SignState} (hc : CacheOk st.cache) (d : Derivation) :
    signStep root fp env i j st d = signStep root fp env' i j st d ∧ ∀ r, signStep root fp env i j st d = .ok r → CacheOk r.cache := by
  obtain ⟨k1, k2⟩ := signKey_any hl he he' i j d.path hc
  unfold signStep
  split_ifs with h1 h2
  · exact ⟨rfl, fun r e => by cases e⟩
  · exact ⟨rfl, fun r e => by obtain rfl := C.ok.inj e; exact hc⟩
  · constructor
    · rw [← k1]
      refine bind_congr_ok fun r hr => ?_
      obtain ⟨pk, cache⟩ := r
      dsimp only
      split_ifs
      · split
        · rfl
        · rw [hj, signOne_any _ _ (he.sig i j) (he'.sig i j) _ _ (show pk.toPriv.num.length = 32 from (k2 _ hr).1)]
      · rfl
    · intro r e
      obtain ⟨x, e1, e⟩ := bind_eq_ok e
      obtain ⟨pk, cache⟩ := x
      have hx : CacheOk (some cache) := fun y hy => by cases hy; exact (k2 _ e1).2
      dsimp only at e
      split_ifs at e
      · split at e
        · cases e
        · obtain ⟨q, -, e⟩ := bind_eq_ok e
          obtain rfl := C.ok.inj e
          exact hx
      · obtain rfl := C.ok.inj e
        exact hx

theorem PSBT.signInputLoop_any {root : HDPriv} (hl : root.num.length = 32) (fp : Bytes) {env env' : SignEnv} (he : env.Good) (he' : env'.Good) (hj : env'.junk = env.junk) (i : Nat)
    (ds : List Derivation) : ∀ (j : Nat) {st : SignState}, CacheOk st.cache →
    signInputLoop root fp env i ds j st = signInputLoop root fp env' i ds j st ∧ ∀ r, signInputLoop root fp env i ds j st = .ok r → CacheOk r.cache := by
  induction ds with
  | nil => exact fun j st hc => ⟨rfl, fun r e => by obtain rfl := C.ok.inj e; exact hc⟩
  | cons d ds ih =>
    intro j st hc
    obtain ⟨s1, s2⟩ := signStep_any hl fp he he' hj i j hc d
    constructor
    · unfold signInputLoop
      rw [← s1]
      exact bind_congr_ok fun r hr => (ih (j + 1) (s2 r hr)).1
    · intro r e
      unfold signInputLoop at e
      obtain ⟨x, e1, e⟩ := bind_eq_ok e
      exact (ih (j + 1) (s2 x e1)).2 r e

theorem PSBT.signLoop_any {root : HDPriv} (hl : root.num.length = 32) (fp : Bytes) {env env' : SignEnv} (he : env.Good) (he' : env'.Good) (hj : env'.junk = env.junk) (n : Nat) :
    ∀ (i : Nat) {st : SignState}, CacheOk st.cache → signLoop root fp env n i st = signLoop root fp env' n i st := by
  induction n with
  | zero => exact fun _ _ _ => rfl
  | succ n ih =>
    intro i st hc
    unfold signLoop
    split
    · rfl
    · rename_i m _
      obtain ⟨s1, s2⟩ := signInputLoop_any hl fp he he' hj i m.derivations 0 hc
      rw [← s1]
      exact bind_congr_ok fun r hr => ih (i + 1) (s2 r hr)

/-- C111, `PSBT::sign`: any object, whatever has been parsed into it; the contents of uninitialised memory are the same. -/
theorem PSBT.C111_sign (p : PSBT) (root : HDPriv) (hl : root.num.length = 32) (env env' : SignEnv) (he : env.Good) (he' : env'.Good) (hj : env'.junk = env.junk) :
    p.sign root env = p.sign root env' := by
  unfold sign
  refine bind_congr_ok fun fp _ => ?_
  rw [signLoop_any hl fp he he' hj _ _ (st := { p := p }) (fun _ h => by cases h)]

/-- C111, `isMine`: any object, any key. -/
theorem PSBT.C111_isMine (p : PSBT) (n : UInt8) (xpub : HDPub) (xprv : HDPriv) (hl : xprv.num.length = 32) (rnd rnd' : Nat → Nat → BN) (h : ∀ i j, Blind (rnd i j))
    (h' : ∀ i j, Blind (rnd' i j)) : p.isMinePub n xpub rnd = p.isMinePub n xpub rnd' ∧ p.isMinePriv n xprv rnd = p.isMinePriv n xprv rnd' := by
  have e1 : ∀ i is, xpub.derive (rnd i) is = xpub.derive (rnd' i) is := fun i is => HDPub.derive_any is xpub (h i) (h' i)
  have e2 : ∀ i is, xprv.derive (rnd i) is = xprv.derive (rnd' i) is := fun i is => (HDPriv.derive_any is hl (h i) (h' i)).1
  unfold isMinePub isMinePriv
  simp only [e1, e2]
  exact ⟨trivial, trivial⟩

/-- C111, signing a transaction of Electrum: any object. -/
theorem ElectrumTx.C111_sign (e : ElectrumTx) (account : HDPriv) (hl : account.num.length = 32) (env env' : SignEnv) (he : env.Good) (he' : env'.Good) :
    e.sign account env = e.sign account env' := by
  have hstep : ∀ i m t res, signStep account env i m t res = signStep account env' i m t res := by
    intro i m t res
    by_cases h1 : account.xpub.key.eq m.hd.key = true
    · cases hm : m.derivation with
      | none =>
        unfold signStep
        dsimp only
        rw [if_pos h1, if_pos h1, hm]
      | some dd =>
        obtain ⟨d0, d1⟩ := dd
        unfold signStep
        dsimp only
        rw [if_pos h1, if_pos h1, hm]
        dsimp only
        obtain ⟨c1, c2⟩ := HDPriv.child_any hl d0.toUInt32 false (he.child i) (he'.child i)
        rw [← c1]
        refine bind_congr_ok fun c hc => ?_
        obtain ⟨g1, g2⟩ := HDPriv.child_any (c2 c hc) d1.toUInt32 false (he.grandchild i) (he'.grandchild i)
        rw [← g1]
        refine bind_congr_ok fun pk hp => ?_
        have hx := fun a type => t.C111_signInput (UInt8.ofNat i) pk.toPriv (g2 pk hp) {} 0 a type (env.sig i) (env'.sig i) (he.sig i) (he'.sig i)
        rw [(hx 0 .p2pkh).2.1]
        by_cases h2 : m.hd.head.type = .p2pkh ∨ m.hd.head.type = .p2sh ∨ m.hd.head.type = .unknown ∨ m.hd.head.type = .directScript
        · rw [if_pos h2, if_pos h2]
        · rw [if_neg h2, if_neg h2]
          cases m.amount with
          | none => rfl
          | some a =>
            dsimp only
            rw [(hx a _).2.2.2]
    · unfold signStep
      dsimp only
      rw [if_neg h1, if_neg h1]
  have hloop : ∀ n i t res, signLoop account env e.metas n i t res = signLoop account env' e.metas n i t res := by
    intro n
    induction n with
    | zero => exact fun _ _ _ => rfl
    | succ n ih =>
      intro i t res
      unfold signLoop
      split
      · rfl
      · rw [hstep]
        exact bind_congr_ok fun r _ => ih _ _ _
  unfold sign
  rw [hloop]

/-! ### Shared secrets, Schnorr signatures, verification -/

/-- C111, `ecdh` and `verify` with a valid public key. -/
theorem C111_ecdh_verify (key : PrivKey) (d : Nat) (pub : ECPoint) (Q : Pt) (useHash : Bool) (g : Sig) (digest : Bytes) (h : key.Holds d) (hq : pub.Holds Q) (h0 : Q ≠ 0)
    (hr : g.r.length = 32) (hs : g.s.length = 32) (hd : digest.length = 32) (z1 z2 z1' z2' : BN) (h1 : Blind z1) (h2 : Blind z2) (h1' : Blind z1') (h2' : Blind z2') :
    key.ecdh pub useHash z1 = key.ecdh pub useHash z1' ∧ pub.verify g digest z1 z2 = pub.verify g digest z1' z2' := by
  refine ⟨by rw [C54_ecdh_exact key d pub Q useHash z1 h hq h0 h1, C54_ecdh_exact key d pub Q useHash z1' h hq h0 h1'], ?_⟩
  obtain ⟨b, e, hb⟩ := C66_verify_exact pub Q g digest z1 z2 hq h0 hr hs hd h1 h2
  obtain ⟨b', e', hb'⟩ := C66_verify_exact pub Q g digest z1' z2' hq h0 hr hs hd h1' h2'
  rw [e, e', Bool.eq_iff_iff.mpr (hb.trans hb'.symm)]

theorem length_carry30 (l : List UInt32) : ∀ t : UInt32, (carry30 t l).length = l.length := by
  induction l with
  | nil => exact fun _ => rfl
  | cons e es ih => exact fun t => by rw [carry30, List.length_cons, List.length_cons, ih]

theorem length_writeLoop (l : List UInt32) : ∀ (t : UInt32) (i : Nat), (writeLoop t i l).length = l.length := by
  induction l with
  | nil => exact fun _ _ => rfl
  | cons e es ih => exact fun t i => by rw [writeLoop, List.length_cons, List.length_cons, ih]

theorem length_neg {a : Bytes} (h : a.length = 32) : (Scalar.neg a).length = 32 := by
  have h1 : (subtract Secp.order (readBE a)).length = 9 := by
    rw [subtract, length_carry30, List.length_zipWith, (readBE_key h).1.len]
    rfl
  unfold Scalar.neg writeBE
  rw [(writeBE_loop _).1, words, length_writeLoop, List.length_reverse, List.length_take, h1]
  rfl

theorem length_tagged3 (tag a b c : Bytes) : (tagged3 tag a b c).length = 32 := length_final _

theorem length_ofSecret {secret : Bytes} {z : BN} {k : PrivKey} (e : PrivKey.ofSecret secret z = .ok k) : k.num = secret := by
  unfold PrivKey.ofSecret at e
  obtain ⟨pub, -, e⟩ := bind_eq_ok e
  obtain rfl := C.ok.inj e
  rfl

theorem evenKey_any (junk : Bytes) {num : Bytes} (hl : num.length = 32) (pub : ECPoint) {z z' : BN} (hz : Blind z) (hz' : Blind z') :
    evenKey junk num pub z = evenKey junk num pub z' ∧ ∀ r, evenKey junk num pub z = .ok r → r.1.length = 32 := by
  constructor
  · unfold evenKey
    refine bind_congr_ok fun even _ => ?_
    by_cases he : even = true
    · rw [if_pos he, if_pos he]
    · rw [if_neg he, if_neg he, (PrivKey.C111_keys {} _ (length_neg hl) true mainnet z z' hz hz').2.1]
  · intro r e
    unfold evenKey at e
    obtain ⟨even, -, e⟩ := bind_eq_ok e
    by_cases he : even = true
    · rw [if_pos he] at e
      obtain rfl := C.ok.inj e
      exact hl
    · rw [if_neg he] at e
      obtain ⟨prv, e1, e⟩ := bind_eq_ok e
      obtain ⟨q, -, e⟩ := bind_eq_ok e
      have hr : r.1 = prv.num := by rw [← C.ok.inj e]
      rw [hr]
      unfold PrivKey.ofScalar at e1
      obtain ⟨pub, -, e1⟩ := bind_eq_ok e1
      rw [← C.ok.inj e1]
      exact length_neg hl

/-- C111, Schnorr signatures: any key of 32 bytes, any digest, also where an assertion fails (C53_sign_undefined). -/
theorem PrivKey.C111_schnorr (key : PrivKey) (hl : key.num.length = 32) (hash junk : Bytes) (z z' : Nat → BN) (hz : ∀ i, Blind (z i)) (hz' : ∀ i, Blind (z' i)) :
    key.schnorrSign hash z junk = key.schnorrSign hash z' junk := by
  obtain ⟨a1, a2⟩ := evenKey_any junk hl key.pubKey (hz 0) (hz' 0)
  unfold schnorrSign
  rw [← a1]
  refine bind_congr_ok fun pp hpp => ?_
  obtain ⟨prv, pub⟩ := pp
  have hprv : prv.length = 32 := a2 _ hpp
  dsimp only
  refine bind_congr_ok fun px _ => ?_
  rw [(C111_keys {} (tagged3 tagNonce prv px hash) (length_tagged3 ..) true mainnet (z 1) (z' 1) (hz 1) (hz' 1)).1]
  refine bind_congr_ok fun k hk => ?_
  obtain ⟨b1, b2⟩ := evenKey_any junk (num := k.num) (by rw [length_ofSecret hk]; exact length_tagged3 ..) k.pubKey (hz 2) (hz' 2)
  rw [← b1]
  refine bind_congr_ok fun kr hkr => ?_
  obtain ⟨kn, R⟩ := kr
  have hkn : kn.length = 32 := b2 _ hkr
  dsimp only
  refine bind_congr_ok fun r _ => ?_
  rw [(C111_keys {} (tagged3 tagChallenge r px hash) (length_tagged3 ..) true mainnet (z 3) (z' 3) (hz 3) (hz' 3)).1]
  refine bind_congr_ok fun ch hch => ?_
  have hc : ch.num.length = 32 := by rw [length_ofSecret hch]; exact length_tagged3 ..
  rw [(C111_keys {} (Scalar.add kn (Scalar.mul ch.num prv)) (Scalar.C61_add _ _ hkn (Scalar.C61_mul _ _ hc hprv).1).1 true mainnet (z 4) (z' 4) (hz 4) (hz' 4)).2.1]

/-- C111, `operator*` of any scalar and a valid point. -/
theorem ECPoint.C111_mul (num : Bytes) (p : ECPoint) (P : Pt) (hl : num.length = 32) (hp : p.Holds P) (h0 : P ≠ 0) (z z' : BN) (hz : Blind z) (hz' : Blind z') :
    ECPoint.mul num p z = ECPoint.mul num p z' := by
  by_cases hlt : beNat num < secpN
  · unfold ECPoint.mul
    by_cases hg : p.eq ECPoint.generator = true
    · rw [if_pos hg, if_pos hg, getPublicKey65_any hl hz hz']
    · rw [if_neg hg, if_neg hg, hp, (readRaw P).1, (readRaw P).2]
      simp only [C.bind_ok]
      obtain ⟨p1, p2⟩ := readBE_key hl
      obtain ⟨r, r1, r2⟩ := pointMultiply_spec _ p1 (by rw [p2]; exact hlt) (p := ⟨readBE (beBytes 32 (xNat P)), readBE (beBytes 32 (yNat P))⟩) (isPoint_raw P) h0 z hz.normal hz.pos hz.lt
      obtain ⟨r', r1', r2'⟩ := pointMultiply_spec _ p1 (by rw [p2]; exact hlt) (p := ⟨readBE (beBytes 32 (xNat P)), readBE (beBytes 32 (yNat P))⟩) (isPoint_raw P) h0 z' hz'.normal hz'.pos hz'.lt
      rw [r1, r1', C.bind_ok, C.bind_ok, writePoint r2, writePoint r2']
  · have h64 : p.point.length = 64 := by
      rw [hp]
      exact length_rawPoint P
    rw [mul_large hl (not_lt.mp hlt) h64, mul_large hl (not_lt.mp hlt) h64]

/-- C111, `schnorr_verify` with a valid public key: any signature and any digest, also where an assertion fails. -/
theorem ECPoint.C111_schnorrVerify (key : ECPoint) (P : Pt) (hp : key.Holds P) (h0 : P ≠ 0) (g : SchnorrSig) (hash junk : Bytes) (z z' : Nat → BN)
    (hz : ∀ i, Blind (z i)) (hz' : ∀ i, Blind (z' i)) : key.schnorrVerify g hash z junk = key.schnorrVerify g hash z' junk := by
  obtain ⟨pub, hpub, hold⟩ := evenPub_spec junk hp
  unfold schnorrVerify
  rw [hpub, C.bind_ok]
  refine bind_congr_ok fun rs _ => ?_
  obtain ⟨n, rs⟩ := rs
  dsimp only
  refine bind_congr_ok fun rx _ => ?_
  generalize ECPoint.fromX junk {} rx = R
  obtain ⟨R, m⟩ := R
  dsimp only
  by_cases hR : R.status = .ub
  · rw [if_pos hR, if_pos hR]
  rw [if_neg hR, if_neg hR]
  refine bind_congr_ok fun px _ => ?_
  rw [(PrivKey.C111_keys {} (tagged3 tagChallenge rx px hash) (length_tagged3 ..) true mainnet (z 0) (z' 0) (hz 0) (hz' 0)).1]
  refine bind_congr_ok fun ch hch => ?_
  have hc : ch.num.length = 32 := by rw [length_ofSecret hch]; exact length_tagged3 ..
  rw [C111_mul ch.num pub _ hc hold (evenPoint_ne h0) (z 1) (z' 1) (hz 1) (hz' 1)]
  refine bind_congr_ok fun eP _ => ?_
  refine bind_congr_ok fun S _ => ?_
  refine bind_congr_ok fun sx _ => ?_
  refine bind_congr_ok fun sb hsb => ?_
  rw [(PrivKey.C111_keys {} sb (length_of_load hsb) true mainnet (z 2) (z' 2) (hz 2) (hz' 2)).1]

/-! ### Keys read from text and bytes -/

theorem length_fromBase58Check (H : Bytes → Bytes) (t out : Bytes) : (fromBase58Check H t out).2.length = out.length := by
  obtain ⟨d, h1, h2⟩ := fromBase_shape base58 t (zeros (out.length + 4))
  rw [length_zeros] at h1 h2
  unfold fromBase58Check
  rw [show fromBase58 t (zeros (out.length + 4)) = _ from h2]
  dsimp only
  split_ifs
  · rfl
  · rfl
  · rw [List.length_append, List.length_take, List.length_append, length_zeros, List.length_drop]
    omega

theorem length_store {b r v : Bytes} {off : Nat} (h : store b off v = .ok r) : r.length = b.length := by
  unfold store at h
  split_ifs at h with hl
  obtain rfl := C.ok.inj h
  simp only [List.length_append, List.length_take, List.length_drop]
  omega

theorem length_finish {m : Bytes} (h : m.length = 32) : (Scalar.finish m).1.length = 32 := by
  have hx := (readBE_key h).1.len
  have h1 : (mod (readBE m) Secp.order).length = 9 := by
    unfold mod cmov
    simp only [List.length_zipWith, subtract, length_carry30, hx]
    rfl
  unfold Scalar.finish writeBE
  rw [(writeBE_loop _).1, words, length_writeLoop, List.length_reverse, List.length_take, h1]
  rfl

/-- C111, private keys read from a WIF text or from bytes, in any pieces. -/
theorem PrivKey.C111_read (k : PrivKey) (text : Bytes) (z z' : BN) (hz : Blind z) (hz' : Blind z') :
    k.fromWIF doubleSha text z = k.fromWIF doubleSha text z' ∧ ∀ st, k.num.length = 32 → k.fromStream z st = k.fromStream z' st := by
  constructor
  · have hl : (((fromBase58Check doubleSha text (zeros 40)).2.drop 1).take 32).length = 32 := by
      rw [List.length_take, List.length_drop, length_fromBase58Check, length_zeros]
      rfl
    unfold fromWIF
    dsimp only
    rw [pubOf_any hl hz hz']
  · intro st hl
    have hfin : ∀ num : Bytes, num.length = 32 → pubOf (Scalar.finish num).1 z = pubOf (Scalar.finish num).1 z' := by
      intro num hn
      exact pubOf_any (length_finish hn) hz hz'
    unfold fromStream
    by_cases h1 : k.status = .failed ∨ k.status = .ub
    · rw [if_pos h1, if_pos h1]
    rw [if_neg h1, if_neg h1]
    have hk : (if k.status = .done then { k with bytesParsed := 0 } else k).num.length = 32 := by split_ifs <;> exact hl
    generalize (if k.status = .done then { k with bytesParsed := 0 } else k) = k1 at hk
    dsimp only
    generalize st.readN (32 - k1.bytesParsed) = r
    obtain ⟨bs, st'⟩ := r
    dsimp only
    cases hs : (if bs = [] then C.ok k1.num else store k1.num k1.bytesParsed bs) with
    | ub => rfl
    | ok num =>
      have hn : num.length = 32 := by
        split_ifs at hs
        · obtain rfl := C.ok.inj hs
          exact hk
        · rw [length_store hs, hk]
      dsimp only
      rw [hfin num hn]

theorem HDPriv.body_any {k : HDPriv} (hl : k.num.length = 32) {z z' : BN} (hz : Blind z) (hz' : Blind z') (st : PStream) : k.body z st = k.body z' st := by
  unfold body
  refine bind_congr_ok fun r _ => ?_
  obtain ⟨h, pos, st, ok⟩ := r
  dsimp only
  by_cases hok : (!ok) = true
  · rw [if_pos hok, if_pos hok]
  rw [if_neg hok, if_neg hok]
  refine bind_congr_ok fun r _ => ?_
  obtain ⟨h, pos, st⟩ := r
  dsimp only
  generalize st.readN (if pos < 46 then 1 else 0) = r
  obtain ⟨bs, st⟩ := r
  dsimp only
  by_cases hb : bs.headD 0 ≠ 0
  · rw [if_pos hb, if_pos hb]
  rw [if_neg hb, if_neg hb]
  generalize st.readN (78 - (pos + bs.length)) = r
  obtain ⟨bs', st⟩ := r
  dsimp only
  refine bind_congr_ok fun num hn => ?_
  have hnum : num.length = 32 := by
    unfold fill at hn
    split_ifs at hn
    · obtain rfl := C.ok.inj hn
      exact hl
    · rw [length_store hn, hl]
  by_cases h78 : pos + bs.length + bs'.length = 78
  · rw [if_pos h78, if_pos h78, pubOf_any (length_finish hnum) hz hz']
  · rw [if_neg h78, if_neg h78]

/-- C111, extended private keys read from text or from bytes, in any pieces. -/
theorem HDPriv.C111_read (k : HDPriv) (text : Bytes) (z z' : BN) (hz : Blind z) (hz' : Blind z') :
    k.fromStr doubleSha text z = k.fromStr doubleSha text z' ∧ ∀ st, k.num.length = 32 → k.fromStream z st = k.fromStream z' st := by
  have h : ∀ (k : HDPriv) st, k.num.length = 32 → k.fromStream z st = k.fromStream z' st := by
    intro k st hl
    unfold fromStream
    by_cases h1 : k.status = .failed ∨ k.status = .ub
    · rw [if_pos h1, if_pos h1]
    rw [if_neg h1, if_neg h1]
    dsimp only
    rw [body_any (k := { k with status := .incomplete, bytesParsed := if k.status = .done then 0 else k.bytesParsed }) hl hz hz' st]
  refine ⟨?_, fun st hl => h k st hl⟩
  unfold fromStr
  dsimp only
  rw [h k.init _ (by unfold init; exact length_zeros 32)]

/-! ### Examples -/

/-- Two numbers that may be drawn. -/
theorem blind_two : Blind (2 :: List.replicate 8 0) where
  normal := ⟨by decide, by decide⟩
  pos := by decide
  lt := by decide +kernel

example : hdOne.num.length = 32 ∧ (∀ n : Nat, Blind ((fun _ => BN.one) n)) ∧ (∀ n : Nat, Blind ((fun _ => 2 :: List.replicate 8 0) n)) :=
  ⟨by decide, fun _ => blind_one, fun _ => blind_two⟩

/-- The wallet with the secret 1 derives the same key with both. -/
example (is : List UInt32) : hdOne.derive (fun _ => BN.one) is = hdOne.derive (fun _ => 2 :: List.replicate 8 0) is :=
  (hdOne.C111_derive (by decide) 0 false is [] _ _ (fun _ => blind_one) fun _ => blind_two).2.1

/-- The generator is a valid public key. -/
example (g : SchnorrSig) (hash : Bytes) :
    ECPoint.generator.schnorrVerify g hash (fun _ => BN.one) [] = ECPoint.generator.schnorrVerify g hash (fun _ => 2 :: List.replicate 8 0) [] :=
  ECPoint.generator.C111_schnorrVerify G ECPoint.holds_generator G_ne_zero g hash [] _ _ (fun _ => blind_one) fun _ => blind_two

/-- Environments for signing. -/
def exDraws (b : BN) : PSBT.SignEnv where
  account := fun _ => b
  key := fun _ _ _ => b
  sig := fun _ _ _ => (b, b)
  junk := fun _ _ => []

theorem exDraws_good {b : BN} (h : Blind b) (hn : limbValue b < secpN) : (exDraws b).Good :=
  ⟨fun _ => h, fun _ _ _ => h, fun _ _ => ⟨fun _ => h, fun _ => h.normal, fun _ => h.pos, fun _ => hn⟩⟩

example (p : PSBT) : p.sign hdOne (exDraws BN.one) = p.sign hdOne (exDraws (2 :: List.replicate 8 0)) :=
  p.C111_sign hdOne (by decide) _ _ (exDraws_good blind_one (by decide +kernel)) (exDraws_good blind_two (by decide +kernel)) rfl

end UB
