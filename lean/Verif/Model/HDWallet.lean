import Verif.Model.ECKey

/-
Model of src/HDWallet.cpp and of the classes HDPrivateKey and HDPublicKey (Bitcoin.h:243-420).

The two classes have the same members for everything but the key and the first half of their `from_stream` differs only in the names of
the version bytes; this common part is `HDHead` here and modelled once.  Numbers drawn by `generate_k_random` and the contents of
uninitialised stack memory are parameters, as in Model/ECKey.  `progress_callback` is in Model/MnemonicSeed.
-/

namespace UB

/-- Bitcoin.h:40-52 `ScriptType` as the type of an extended key. -/
inductive HDType
  | unknown | directScript | p2pkh | p2sh | p2wpkh | p2wsh | p2sh_p2wpkh | p2sh_p2wsh | multisig
deriving DecidableEq, Repr

/-- The members chainCode, depth, parentFingerprint, childNumber, type (Bitcoin.h:277-281, 368-373), network (Bitcoin.h:186, 373) and
prefix (Bitcoin.h:251, 345) with the values the constructors without arguments set (HDWallet.cpp:21-34, 669-678; `prefix` of an
HDPrivateKey is not set, but is not read before it is written either). -/
structure HDHead where
  network : Network := mainnet
  type : HDType := .unknown
  depth : UInt8 := 0
  fingerprint : Bytes := zeros 4
  childNumber : UInt32 := 0
  chainCode : Bytes := zeros 32
  pre : Bytes := zeros 4
deriving DecidableEq, Repr

/-- The version bytes in the order in which they are compared (HDWallet.cpp:148-173). -/
def prvPrefixes (n : Network) : List (Bytes × HDType) :=
  [(n.xprv, .unknown), (n.yprv, .p2sh_p2wpkh), (n.zprv, .p2wpkh), (n.Yprv, .p2sh_p2wsh), (n.Zprv, .p2wsh)]

/-- The same for public keys (HDWallet.cpp:585-610). -/
def pubPrefixes (n : Network) : List (Bytes × HDType) :=
  [(n.xpub, .unknown), (n.ypub, .p2sh_p2wpkh), (n.zpub, .p2wpkh), (n.Ypub, .p2sh_p2wsh), (n.Zpub, .p2wsh)]

/-- HDWallet.cpp:92-107: the version bytes for a type. -/
def prvPrefix (n : Network) : HDType → Bytes
  | .p2wpkh => n.zprv
  | .p2sh_p2wpkh => n.yprv
  | .p2wsh => n.Zprv
  | .p2sh_p2wsh => n.Yprv
  | _ => n.xprv

/-- HDWallet.cpp:334-349, 528-543. -/
def pubPrefix (n : Network) : HDType → Bytes
  | .p2wpkh => n.zpub
  | .p2sh_p2wpkh => n.ypub
  | .p2wsh => n.Zpub
  | .p2sh_p2wsh => n.Ypub
  | _ => n.xpub

/-- The loop over `networks` in HDWallet.cpp:147-174 and 584-611. -/
def findPrefix (prefixes : Network → List (Bytes × HDType)) (p : Bytes) : List Network → Option (Network × HDType)
  | [] => none
  | n :: ns =>
    match (prefixes n).find? fun e => e.1 == p with
    | some e => some (n, e.2)
    | none => findPrefix prefixes p ns

/-- The body of a reading loop: the bytes `bs` are stored from `arr[pos - lo]` on. -/
def fill (arr : Bytes) (lo pos : Nat) (bs : Bytes) : C Bytes := if bs = [] then .ok arr else store arr (pos - lo) bs

/-- A number written big-endian in 4 bytes (HDWallet.cpp:110-112, 352-354, 546-548). -/
def be32 (n : UInt32) : Bytes := [(n >>> 24).toUInt8, (n >>> 16).toUInt8, (n >>> 8).toUInt8, n.toUInt8]

namespace HDHead

/-- HDWallet.cpp:141-178, 578-615: the version bytes; `pos` is `bytes_parsed+bytes_read`.  The last component is false if the function
returns with PARSING_FAILED. -/
def readPrefix (prefixes : Network → List (Bytes × HDType)) (h : HDHead) (pos : Nat) (st : PStream) : C (HDHead × Nat × PStream × Bool) := do
  let (bs, st) := st.readN (4 - pos)
  let pre ← fill h.pre 0 pos bs
  let h := { h with pre := pre }
  let pos := pos + bs.length
  if pos = 4 then
    match findPrefix prefixes pre networks with
    | none => return (h, pos, st, false)
    | some (n, t) => return ({ h with network := n, type := t }, pos, st, true)
  else return (h, pos, st, true)

/-- HDWallet.cpp:179-200, 616-636: depth, fingerprint, child number and chain code. -/
def readRest (h : HDHead) (pos : Nat) (st : PStream) : C (HDHead × Nat × PStream) := do
  let (bs, st) := st.readN (if pos < 5 then 1 else 0)
  let h := { h with depth := bs.headD h.depth }
  let pos := pos + bs.length
  let (bs, st) := st.readN (9 - pos)
  let fp ← fill h.fingerprint 5 pos bs
  let h := { h with fingerprint := fp }
  let pos := pos + bs.length
  let (bs, st) := st.readN (13 - pos)
  let h := { h with childNumber := bs.foldl (fun (c : UInt32) (b : UInt8) => (c <<< 8) + b.toUInt32) h.childNumber }
  let pos := pos + bs.length
  let (bs, st) := st.readN (45 - pos)
  let cc ← fill h.chainCode 13 pos bs
  return ({ h with chainCode := cc }, pos + bs.length, st)

/-- The first 45 bytes of a serialized key: HDWallet.cpp:91-113, 333-355, 527-549 (the arrays have the lengths 4, 4 and 32). -/
def bytes (h : HDHead) (version : Bytes) : Bytes := version ++ [h.depth] ++ h.fingerprint ++ be32 h.childNumber ++ h.chainCode

end HDHead

/-- `SHA512` with `beginHMAC`, `write` for each piece and `endHMAC` (Hash.cpp:190-196, 206-209): unlike `ubtc_hmac_sha512_Update`, `write`
takes the length as a size_t. -/
def hmac512 (key : Bytes) (pieces : List Bytes) : Bytes :=
  sha512Code.hmacFinal (pieces.foldl (fun h p => { h with ctx := sha512Code.update h.ctx p }) (sha512Code.hmacInit key))

/-- Bitcoin.h:37 `HARDENED_INDEX`. -/
def hardenedIndex : UInt32 := 0x80000000

/-! ### HDPrivateKey -/

/-- Bitcoin.h:243-329 `class HDPrivateKey`; `num` has 32 bytes. -/
structure HDPriv where
  status : Status := .done
  bytesParsed : Nat := 0
  num : Bytes := zeros 32
  pubKey : ECPoint := {}
  head : HDHead := {}
deriving DecidableEq, Repr

/-- Bitcoin.h:339-420 `class HDPublicKey`. -/
structure HDPub where
  key : ECPoint := {}
  head : HDHead := {}
deriving DecidableEq, Repr

namespace HDPriv

/-- The base class part, on which the methods of PrivateKey work. -/
def toPriv (k : HDPriv) : PrivKey :=
  { status := k.status, bytesParsed := k.bytesParsed, num := k.num, pubKey := k.pubKey, network := k.head.network }

/-- Bitcoin.h:327 `publicKey`. -/
def publicKey (k : HDPriv) : ECPoint := { k.pubKey.toPublic with compressed := true }

/-- HDWallet.cpp:21-32 `init` (pubKey and network are kept). -/
def init (k : HDPriv) : HDPriv :=
  { k with
    status := .done, bytesParsed := 0, num := zeros 32, pubKey := { k.pubKey with compressed := true }
    head := { k.head with chainCode := zeros 32, depth := 0, fingerprint := zeros 4, childNumber := 0, type := .unknown } }

/-- HDWallet.cpp:36-57 the constructor from the parts; `fp = none` is a null pointer. -/
def ofParts (secret chainCode : Bytes) (depth : UInt8) (fp : Option Bytes) (childNumber : UInt32) (net : Network) (type : HDType) (z : BN) : C HDPriv := do
  let pub ← pubOf secret z
  return { num := secret, pubKey := { pub with compressed := true }
           head := { network := net, type := type, depth := depth, fingerprint := fp.getD (zeros 4), childNumber := childNumber, chainCode := chainCode } }

/-- HDWallet.cpp:90-114: the 78 bytes of `to_bytes`. -/
def bytes (k : HDPriv) : Bytes := k.head.bytes (prvPrefix k.head.network k.head.type) ++ [0x00] ++ k.num

/-- HDWallet.cpp:121-130 `to_stream`. -/
def toStream (k : HDPriv) (cap : Option Nat) (offset : Nat) : C Bytes := do
  let s : Ser := ⟨cap, []⟩
  let s ← s.emit k.bytes 0 78 offset
  return s.out

/-- HDWallet.cpp:139-229: `from_stream` from the reading of the prefix on: new object, new value of `bytes_parsed+bytes_read`, rest of the stream. -/
def body (k : HDPriv) (z : BN) (st : PStream) : C (HDPriv × Nat × PStream) := do
  let (h, pos, st, ok) ← k.head.readPrefix prvPrefixes k.bytesParsed st
  if !ok then return ({ k with head := h, status := .failed }, pos, st)
  else do
    let (h, pos, st) ← h.readRest pos st
    let k := { k with head := h }
    let (bs, st) := st.readN (if pos < 46 then 1 else 0)
    let pos := pos + bs.length
    if bs.headD 0 ≠ 0 then return ({ k with status := .failed }, pos, st)
    else do
      let (bs, st) := st.readN (78 - pos)
      let num ← fill k.num 46 pos bs
      let pos := pos + bs.length
      if pos = 78 then do
        let r := Scalar.finish num
        let pub ← pubOf r.1 z
        return ({ k with status := if r.2 then .done else .failed, num := r.1, pubKey := { pub with compressed := true }, bytesParsed := pos }, pos, st)
      else return ({ k with num := num, bytesParsed := pos }, pos, st)

/-- HDWallet.cpp:131-230 `from_stream`: new object, return value, rest of the stream. -/
def fromStream (k : HDPriv) (z : BN) (st : PStream) : HDPriv × Nat × PStream :=
  if k.status = .failed ∨ k.status = .ub then (k, 0, st)
  else
    let bp := if k.status = .done then 0 else k.bytesParsed
    match body { k with status := .incomplete, bytesParsed := bp } z st with
    | .ub => ({ k with status := .ub, bytesParsed := bp }, 0, st)
    | .ok (k', pos, st') => (k', pos - bp, st')

/-- HDWallet.cpp:231-241 `from_str`: new object and return value. -/
def fromStr (H : Bytes → Bytes) (k : HDPriv) (text : Bytes) (z : BN) : HDPriv × Nat :=
  let r := fromBase58Check H text (zeros 85)
  if r.1 = 0 then (k.init, 0)
  else ((k.init.fromStream z { bytes := r.2 }).1, text.length)

/-- HDWallet.cpp:242-257 `fromSeed`. -/
def fromSeed (k : HDPriv) (seed : Bytes) (net : Network) (z : BN) : C HDPriv := do
  let raw := hmac512 [66, 105, 116, 99, 111, 105, 110, 32, 115, 101, 101, 100] [seed]
  let num ← load raw 0 32
  let cc ← load raw 32 32
  let pub ← pubOf num z
  let k := k.init
  return { k with num := num, pubKey := { pub with compressed := true }, head := { k.head with network := net, chainCode := cc } }

/-- HDWallet.cpp:276-286, one round of the loop on `(seed, u)`. -/
def seedRound (mnemonic : Bytes) (s : Bytes × Bytes) : Bytes × Bytes :=
  let u := hmac512 mnemonic [s.2]
  (s.1.zipWith (· ^^^ ·) u, u)

/-- HDWallet.cpp:262-286: the seed computed by `fromMnemonic` (PBKDF2_ROUNDS is 2048). -/
def mnemonicSeed (mnemonic password : Bytes) : Bytes :=
  let u := hmac512 mnemonic [[109, 110, 101, 109, 111, 110, 105, 99], password, [0, 0, 0, 1]]
  ((List.range 2047).foldl (fun s _ => seedRound mnemonic s) (u, u)).1

/-- HDWallet.cpp:261-289 `fromMnemonic`. -/
def fromMnemonic (k : HDPriv) (mnemonic password : Bytes) (net : Network) (z : BN) : C HDPriv :=
  k.init.fromSeed (mnemonicSeed mnemonic password) net z

/-- HDWallet.cpp:295-299 `xprv(arr, len)`: return value and new contents of the buffer. -/
def xprv (H : Bytes → Bytes) (k : HDPriv) (arr : Bytes) : Nat × Bytes := toBase58Check H k.bytes arr

/-- HDWallet.cpp:332-361 `xpub(arr, len)`: return value and new contents of the buffer. -/
def xpubText (H : Bytes → Bytes) (k : HDPriv) (arr : Bytes) : C (Nat × Bytes) := do
  let (l, sec) ← k.publicKey.sec 65
  let hex := k.head.bytes (pubPrefix k.head.network k.head.type) ++ sec.take l
  return toBase58Check H hex arr

/-- HDWallet.cpp:363-369 `fingerprint`. -/
def fingerprint (k : HDPriv) : C Bytes := do
  let (l, sec) ← k.publicKey.sec 65
  return (hash160 (sec.take l)).take 4

/-- HDWallet.cpp:378-381 `xpub()`, with the constructor HDWallet.cpp:679-701. -/
def xpub (k : HDPriv) : HDPub :=
  { key := { point := k.publicKey.point, compressed := true }, head := { k.head with pre := zeros 4 } }

/-- HDWallet.cpp:401-437: the type of a hardened child. -/
def childType (type : HDType) (depth : UInt8) (index : UInt32) : HDType :=
  if depth = 0 then
    if index = hardenedIndex + 44 then .p2pkh
    else if index = hardenedIndex + 49 then .p2sh_p2wpkh
    else if index = hardenedIndex + 84 then .p2wpkh
    else if index = hardenedIndex + 48 then .multisig
    else if index = hardenedIndex + 45 then .p2sh
    else type
  else if depth = 3 ∧ type = .multisig then
    if index = hardenedIndex + 1 then .p2sh_p2wsh
    else if index = hardenedIndex + 2 then .p2wsh
    else type
  else type

/-- HDWallet.cpp:422-429: the network of a hardened child. -/
def childNetwork (net : Network) (depth : UInt8) (index : UInt32) : Network :=
  if depth = 1 then
    if index = hardenedIndex + 1 then testnet
    else if index = hardenedIndex then mainnet
    else net
  else net

/-- HDWallet.cpp:382-464 `child`. -/
def child (k : HDPriv) (index : UInt32) (hardened : Bool) (z : BN) : C HDPriv := do
  let hardened := hardened || decide (hardenedIndex ≤ index)
  let (l, sec) ← k.publicKey.sec 65
  let hash := hash160 (sec.take l)
  let index := if hardened && decide (index < hardenedIndex) then index + hardenedIndex else index
  let type := if hardened then childType k.head.type k.head.depth index else k.head.type
  let network := if hardened then childNetwork k.head.network k.head.depth index else k.head.network
  let data := (if hardened then 0x00 :: k.num else sec.take 33) ++ be32 index
  let raw := hmac512 k.head.chainCode [data]
  let cc ← load raw 32 32
  let il ← load raw 0 32
  let r := (({} : ECScalar).fromStream { bytes := il }).1
  let secret := Scalar.add r.num k.num
  let pub ← pubOf secret z
  return { num := secret, pubKey := pub
           head := { network := network, type := type, depth := k.head.depth + 1, fingerprint := hash.take 4, childNumber := index, chainCode := cc } }

/-- HDWallet.cpp:470-476 `derive(index, len)`; `rnd i` is drawn in the i-th derivation. -/
def derive (k : HDPriv) (rnd : Nat → BN) : List UInt32 → C HDPriv
  | [] => .ok k
  | i :: is => do
    let c ← k.child i false (rnd 0)
    c.derive (fun n => rnd (n + 1)) is

end HDPriv

/-! ### Paths -/

/-- HDWallet.cpp:480-487, 819-826 on the text `path` (without the terminating zero): the part of the text that is looked at.  For the
texts "" and "m" and for texts of two characters starting with 'm', `len-1` is -1 as a size_t, with which `cur` is indexed. -/
def pathBody (path : Bytes) : C Bytes :=
  let cur := if path.head? = some 109 then path.drop 2 else path
  if path.head? = some 109 ∧ path.length ≤ 2 ∨ path = [] then .ub
  else .ok (if cur.getLast? = some 47 then cur.dropLast else cur)

/-- HDWallet.cpp:505-520: the second loop; `done` are the finished entries of `derivation`, `cur` the current one.  `none`: the function
returns the invalid key. -/
def prvPathLoop : Bytes → List UInt32 → UInt32 → Option (List UInt32)
  | [], done, cur => some (done ++ [cur])
  | c :: cs, done, cur =>
    if c = 47 then prvPathLoop cs (done ++ [cur]) 0
    else if cur ≥ hardenedIndex then none
    else if 48 ≤ c ∧ c ≤ 57 then prvPathLoop cs done (cur * 10 + (c - 48).toUInt32)
    else prvPathLoop cs done (cur + hardenedIndex)

/-- HDWallet.cpp:477-523 `derive(path)` up to the call of `derive(derivation, derivationLen)` with the result; `none`: an invalid key is
returned.  (`calloc` does not fail.) -/
def prvPath (path : Bytes) : C (Option (List UInt32)) := do
  let t ← pathBody path
  if t.all fun c => (48 ≤ c && c ≤ 57) || c == 47 || c == 39 || c == 104 then return prvPathLoop t [] 0
  else return none

/-- HDWallet.cpp:843-854: the second loop for public keys. -/
def pubPathLoop : Bytes → List UInt32 → UInt32 → Option (List UInt32)
  | [], done, cur => some (done ++ [cur])
  | c :: cs, done, cur =>
    if c = 47 then if cur ≥ hardenedIndex then none else pubPathLoop cs (done ++ [cur]) 0
    else pubPathLoop cs done (cur * 10 + (c - 48).toUInt32)

/-- HDWallet.cpp:816-858 `derive(path)` of a public key. -/
def pubPath (path : Bytes) : C (Option (List UInt32)) := do
  let t ← pathBody path
  if t.all fun c => (48 ≤ c && c ≤ 57) || c == 47 then return pubPathLoop t [] 0
  else return none

/-- HDWallet.cpp:477-523 `HDPrivateKey::derive(path)`. -/
def HDPriv.derivePath (k : HDPriv) (path : Bytes) (rnd : Nat → BN) : C HDPriv := do
  match ← prvPath path with
  | none => return {}
  | some is => k.derive rnd is

/-! ### HDPublicKey -/

namespace HDPub

/-- HDWallet.cpp:526-556: the 78 bytes of `to_bytes`. -/
def bytes (k : HDPub) : C Bytes := do
  let x ← load k.key.point 0 32
  let y ← entry k.key.point 63
  return k.head.bytes (pubPrefix k.head.network k.head.type) ++ [0x02 + (y &&& 0x01)] ++ x

/-- HDWallet.cpp:558-567 `to_stream`. -/
def toStream (k : HDPub) (cap : Option Nat) (offset : Nat) : C Bytes := do
  let s : Ser := ⟨cap, []⟩
  let hex ← k.bytes
  let s ← s.emit hex 0 78 offset
  return s.out

/-- HDWallet.cpp:642-653: what is done when 78 bytes have been read (`ECPoint::isValid` uses `sec`, which is not virtual). -/
def finish (junk : Bytes) (k : ECPoint) : C ECPoint := do
  let arr ← load k.point 0 33
  let (_, buf) ← uncompressPubkey arr junk
  let q ← load buf 1 64
  let k := { k with point := q, status := .done }
  let ok ← k.isValid
  return if ok then k else { k with status := .failed }

/-- HDWallet.cpp:576-656: `from_stream` from the reading of the prefix on. -/
def body (junk : Bytes) (k : HDPub) (st : PStream) : C (HDPub × Nat × PStream) := do
  let (h, pos, st, ok) ← k.head.readPrefix pubPrefixes k.key.bytesParsed st
  if !ok then return ({ k with head := h, key := { k.key with status := .failed } }, pos, st)
  else do
    let (h, pos, st) ← h.readRest pos st
    let (bs, st) := st.readN (78 - pos)
    let p ← fill k.key.point 45 pos bs
    let pos := pos + bs.length
    let key := { k.key with point := p }
    if pos = 78 then do
      let key ← finish junk key
      return ({ k with head := h, key := { key with bytesParsed := pos } }, pos, st)
    else return ({ k with head := h, key := { key with bytesParsed := pos } }, pos, st)

/-- HDWallet.cpp:568-657 `from_stream`: new object, return value, rest of the stream. -/
def fromStream (junk : Bytes) (k : HDPub) (st : PStream) : HDPub × Nat × PStream :=
  if k.key.status = .failed ∨ k.key.status = .ub then (k, 0, st)
  else
    let bp := if k.key.status = .done then 0 else k.key.bytesParsed
    match body junk { k with key := { k.key with status := .incomplete, bytesParsed := bp } } st with
    | .ub => ({ k with key := { k.key with status := .ub, bytesParsed := bp } }, 0, st)
    | .ok (k', pos, st') => (k', pos - bp, st')

/-- HDWallet.cpp:658-667 `from_str`: new object and return value. -/
def fromStr (H : Bytes → Bytes) (junk : Bytes) (k : HDPub) (text : Bytes) : HDPub × Nat :=
  let r := fromBase58Check H text (zeros 85)
  if r.1 = 0 then (k, 0)
  else ((k.fromStream junk { bytes := r.2 }).1, text.length)

/-- HDWallet.cpp:724-728 `xpub(arr, len)`: return value and new contents of the buffer. -/
def xpub (H : Bytes → Bytes) (k : HDPub) (arr : Bytes) : C (Nat × Bytes) := do
  let hex ← k.bytes
  return toBase58Check H hex arr

/-- HDWallet.cpp:761-767 `fingerprint`. -/
def fingerprint (k : HDPub) : C Bytes := do
  let (l, sec) ← k.key.sec 65
  return (hash160 (sec.take l)).take 4

/-- HDWallet.cpp:776-808 `child`. -/
def child (k : HDPub) (index : UInt32) (z : BN) : C HDPub := do
  let (l, sec) ← k.key.sec 65
  let hash := hash160 (sec.take l)
  let data := sec.take 33 ++ be32 index
  let raw := hmac512 k.head.chainCode [data]
  let cc ← load raw 32 32
  let il ← load raw 0 32
  let r := (({} : ECScalar).fromStream { bytes := il }).1
  let p ← ECPoint.mul r.num ECPoint.generator z
  let p ← p.add k.key
  return { key := { point := p.point }
           head := { network := k.head.network, type := k.head.type, depth := k.head.depth + 1, fingerprint := hash.take 4, childNumber := index
                     chainCode := cc } }

/-- HDWallet.cpp:809-815 `derive(index, len)`. -/
def derive (k : HDPub) (rnd : Nat → BN) : List UInt32 → C HDPub
  | [] => .ok k
  | i :: is => do
    let c ← k.child i (rnd 0)
    c.derive (fun n => rnd (n + 1)) is

/-- HDWallet.cpp:816-858 `derive(path)`. -/
def derivePath (k : HDPub) (path : Bytes) (rnd : Nat → BN) : C HDPub := do
  match ← pubPath path with
  | none => return {}
  | some is => k.derive rnd is

/-- Bitcoin.cpp:437-443 `PublicKey::verify` called on an HDPublicKey: `serialize` is virtual through `to_stream`, so the first 65 bytes of
the serialized extended key are taken for the public key. -/
def verify (k : HDPub) (sig : Sig) (hash : Bytes) (z1 z2 : BN) : C Bool := do
  let signature ← sig.bin (zeros 64)
  let (_, pub) ← serialize k.toStream 65 0 .raw
  let r ← verifyDigest pub signature hash z1 z2
  return r == 0

end HDPub

end UB
