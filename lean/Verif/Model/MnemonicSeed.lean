import Verif.Model.Mnemonic
import Verif.Model.HDWallet

/-
Seeds of mnemonics with a cache and progress reports: bip39.c:36-47, 97-100, 188-231 and HDWallet.cpp:261-291.

Simplifications: the text arguments are the characters before the NUL; their lengths are below 2^31, so that `int` holds them; the
seed buffer of the caller has 64 bytes; the callback does not call the functions of these files again (`pctx` is a static variable);
the options are the default ones of options.h:59-61 (cache with four places).
-/

namespace UB

/-- The characters before the NUL of a text in an array. -/
def cText (b : Bytes) : Bytes := b.takeWhile (· != 0)

/-- bip39.c:40-45 a place of `bip39_cache`. -/
structure SeedEntry where
  set : Bool := false
  mnemonic : Bytes := zeros 256
  passphrase : Bytes := zeros 64
  seed : Bytes := zeros 64
deriving DecidableEq, Repr

/-- bip39.c:38-47 the static variables `bip39_cache`, `bip39_cache_index`. -/
structure SeedCache where
  entries : List SeedEntry := List.replicate 4 {}
  index : Nat := 0
deriving DecidableEq, Repr

namespace SeedCache

/-- bip39.c:195-203 the first place with this text and passphrase. -/
def find (m p : Bytes) : List SeedEntry → Option Bytes
  | [] => none
  | e :: es => if e.set = true ∧ cText e.mnemonic = m ∧ cText e.passphrase = p then some e.seed else find m p es

/-- bip39.c:222-229 storing a seed; `strcpy` copies the NUL too. -/
def put (c : SeedCache) (m p seed : Bytes) : C SeedCache := do
  match c.entries[c.index]? with
  | none => .ub
  | some e => do
    let tm ← store e.mnemonic 0 (m ++ [0])
    let tp ← store e.passphrase 0 (p ++ [0])
    let ts ← store e.seed 0 seed
    return { entries := c.entries.set c.index { set := true, mnemonic := tm, passphrase := tp, seed := ts }, index := (c.index + 1) % 4 }

end SeedCache

/-- bip39.c:205-219 the seed and the reports `(current, total)` to the callback. `junk` is the uninitialised block buffer of the local hash
context in pbkdf2.c, `saltJunk` the uninitialised `salt`. -/
def seedRounds39 (junk saltJunk m p : Bytes) : C (Bytes × List (Nat × Nat)) := do
  let salt ← store saltJunk 0 [109, 110, 101, 109, 111, 110, 105, 99]
  let salt ← store salt 8 p
  let pctx := sha512Code.pbkdfInit junk m (salt.take (p.length + 8)) 1
  let (pctx, calls) := (List.range 16).foldl
    (fun (st : Sha2Code.PbkdfCtx UInt64 × List (Nat × Nat)) i => (sha512Code.pbkdfUpdate st.1 (2048 / 16), st.2 ++ [((i + 1) * 2048 / 16, 2048)]))
    (pctx, [(0, 2048)])
  return (sha512Code.pbkdfFinal pctx, calls)

/-- bip39.c:188-231 `mnemonic_to_seed`: the seed, the reports to the callback and the cache afterwards. -/
def mnemonicToSeed (junk saltJunk m p : Bytes) (c : SeedCache) : C (Bytes × List (Nat × Nat) × SeedCache) := do
  match if m.length < 256 ∧ p.length < 64 then SeedCache.find m p c.entries else none with
  | some seed => return (seed, [], c)
  | none => do
    let (seed, calls) ← seedRounds39 junk saltJunk m p
    if m.length < 256 ∧ p.length < 64 then do
      let c ← c.put m p seed
      return (seed, calls, c)
    else return (seed, calls, c)

/-- bip39.c:97-100 `mnemonic_clear` on the static buffer of `mnemonic_from_data`. -/
def mnemonicClear (mnemo : Bytes) : Bytes := zeros mnemo.length

namespace HDPriv

/-- HDWallet.cpp:276-286, one round of the loop with the report to the callback, as the numerator `i` of `(float)i/(float)2047`. -/
def seedRoundP (mnemonic : Bytes) (st : (Bytes × Bytes) × List Nat) (i : Nat) : (Bytes × Bytes) × List Nat :=
  (seedRound mnemonic st.1, if i &&& 0xFF = 0xFF then st.2 ++ [i] else st.2)

/-- HDWallet.cpp:261-289 `fromMnemonic` with a callback: the key and the reports. -/
def fromMnemonicP (k : HDPriv) (mnemonic password : Bytes) (net : Network) (z : BN) : C (HDPriv × List Nat) := do
  let u := hmac512 mnemonic [[109, 110, 101, 109, 111, 110, 105, 99], password, [0, 0, 0, 1]]
  let (s, calls) := (List.range' 1 2047).foldl (seedRoundP mnemonic) ((u, u), [])
  let k ← k.init.fromSeed s.1 net z
  return (k, calls)

end HDPriv

end UB
