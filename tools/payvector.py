#!/usr/bin/env python3
"""Writes lean/Verif/Props/PaymentVector.lean, a payment from three outputs (one of each kind) of the key with the secret 1, and
lean/Verif/Props/SignVector.lean, the signatures in the examples of C72, C103 and C107, with the values of all hash functions on the way to the nonces.  Lean checks every value; this program only finds them."""
import hashlib, hmac, struct

P = 2**256 - 2**32 - 977
N = 0xFFFFFFFFFFFFFFFFFFFFFFFFFFFFFFFEBAAEDCE6AF48A03BBFD25E8CD0364141
GX = 0x79BE667EF9DCBBAC55A06295CE870B07029BFCDB2DCE28D959F2815B16F81798

def sha(m): return hashlib.sha256(m).digest()
def dsha(m): return sha(sha(m))

def rol(x, n): return ((x << n) | (x >> (32 - n))) & 0xffffffff
def rmd(m):
    try:
        return hashlib.new('ripemd160', m).digest()
    except ValueError:
        pass
    r1 = [0,1,2,3,4,5,6,7,8,9,10,11,12,13,14,15,7,4,13,1,10,6,15,3,12,0,9,5,2,14,11,8,3,10,14,4,9,15,8,1,2,7,0,6,13,11,5,12,1,9,11,10,0,8,12,4,13,3,7,15,14,5,6,2,4,0,5,9,7,12,2,10,14,1,3,8,11,6,15,13]
    r2 = [5,14,7,0,9,2,11,4,13,6,15,8,1,10,3,12,6,11,3,7,0,13,5,10,14,15,8,12,4,9,1,2,15,5,1,3,7,14,6,9,11,8,12,2,10,0,4,13,8,6,4,1,3,11,15,0,5,12,2,13,9,7,10,14,12,15,10,4,1,5,8,7,6,2,13,14,0,3,9,11]
    s1 = [11,14,15,12,5,8,7,9,11,13,14,15,6,7,9,8,7,6,8,13,11,9,7,15,7,12,15,9,11,7,13,12,11,13,6,7,14,9,13,15,14,8,13,6,5,12,7,5,11,12,14,15,14,15,9,8,9,14,5,6,8,6,5,12,9,15,5,11,6,8,13,12,5,12,13,14,11,8,5,6]
    s2 = [8,9,9,11,13,15,15,5,7,7,8,11,14,14,12,6,9,13,15,7,12,8,9,11,7,7,12,7,6,15,13,11,9,7,15,11,8,6,6,14,12,13,5,14,13,13,7,5,15,5,8,11,14,14,6,14,6,9,12,9,12,5,15,8,8,5,12,9,12,5,14,6,8,13,6,5,15,13,11,11]
    k1 = [0, 0x5A827999, 0x6ED9EBA1, 0x8F1BBCDC, 0xA953FD4E]
    k2 = [0x50A28BE6, 0x5C4DD124, 0x6D703EF3, 0x7A6D76E9, 0]
    f = [lambda x,y,z: x^y^z, lambda x,y,z: (x&y)|(~x&z), lambda x,y,z: (x|(~y&0xffffffff))^z, lambda x,y,z: (x&z)|(y&~z), lambda x,y,z: x^(y|(~z&0xffffffff))]
    h = [0x67452301, 0xefcdab89, 0x98badcfe, 0x10325476, 0xc3d2e1f0]
    q = m + b'\x80' + b'\0' * ((55 - len(m)) % 64) + struct.pack('<Q', 8 * len(m))
    for o in range(0, len(q), 64):
        w = struct.unpack('<16I', q[o:o+64])
        a = list(h); b = list(h)
        for j in range(80):
            t = (rol((a[0] + f[j//16](a[1], a[2], a[3]) + w[r1[j]] + k1[j//16]) & 0xffffffff, s1[j]) + a[4]) & 0xffffffff
            a = [a[4], t, a[1], rol(a[2], 10), a[3]]
            t = (rol((b[0] + f[4-j//16](b[1], b[2], b[3]) + w[r2[j]] + k2[j//16]) & 0xffffffff, s2[j]) + b[4]) & 0xffffffff
            b = [b[4], t, b[1], rol(b[2], 10), b[3]]
        h = [(h[(i+1)%5] + a[(i+2)%5] + b[(i+3)%5]) & 0xffffffff for i in range(5)]
    return struct.pack('<5I', *h)
def h160(m): return rmd(sha(m))

out = []
names = {}
prefix = 'value'
def be(b): return f'beBytes {len(b)} 0x{b.hex()}' if b else 'beBytes 0 0'
def sha_thm(m):
    """A theorem for one value of SHA-256."""
    if m in names: return names[m]
    name = f'{prefix}{len(names)}'
    names[m] = name
    p = m + b'\x80' + b'\0' * ((55 - len(m)) % 64) + struct.pack('>Q', 8 * len(m))
    out.append(f'theorem {name} : Spec.sha256 ({be(m)}) = {be(sha(m))} :=\n  sha256_of (n := {len(p)//64}) (t := 0x{p.hex()}) (by decide +kernel) (by decide +kernel)\n')
    return name
def hash256_term(m): return f'hash256_of (by decide +kernel) {sha_thm(m)} {sha_thm(sha(m))}'
def hmac_term(k, m):
    q = k + b'\0' * (64 - len(k))
    x = bytes(c ^ 0x36 for c in q) + m
    y = bytes(c ^ 0x5c for c in q) + sha(x)
    assert sha(y) == hmac.new(k, m, hashlib.sha256).digest()
    return f'(hmac_of (by decide +kernel) (by decide +kernel) {sha_thm(x)} (by decide +kernel) {sha_thm(y)})'
def hm(k, m): return hmac.new(k, m, hashlib.sha256).digest()

def root(D, d):
    """The r for which s would be 0, if it is no abscissa."""
    r = -int.from_bytes(D, 'big') * pow(d, -1, N) % N
    return r if pow(r**3 + 7, (P - 1)//2, P) != 1 and r + N >= P else None

def nonce(name, d, D, term, digest, doc, secret=None):
    """That the digest D, the value of the term by the theorem digest, can be signed with d."""
    x = d.to_bytes(32, 'big')
    X = f'beBytes 32 0x{d:x}' if d != 1 else 'beBytes 32 1'
    v0 = b'\x01' * 32; k0 = bytes(32)
    k1 = hm(k0, v0 + b'\0' + x + D); v1 = hm(k1, v0); k2 = hm(k1, v1 + b'\x01' + x + D); v2 = hm(k2, v1); c0 = hm(k2, v2)
    k3 = hm(k2, c0 + b'\0'); v3 = hm(k3, c0); c1 = hm(k3, v3)
    hs = [hmac_term(k0, v0 + b'\0' + x + D), hmac_term(k1, v0), hmac_term(k1, v1 + b'\x01' + x + D), hmac_term(k2, v1), hmac_term(k2, v2), hmac_term(k2, c0 + b'\0'), hmac_term(k3, c0), hmac_term(k3, v3)]
    out.append(f'theorem candidates_{name} : drbgCandidate ({X}) ({be(D)}) 0 = {be(c0)} ∧\n    drbgCandidate ({X}) ({be(D)}) 1 = {be(c1)} :=\n  candidates_of ' + '\n    '.join(hs) + '\n')
    s = 'by unfold secpN; decide +kernel'
    sp = 'by unfold secpP; decide +kernel'
    spn = 'by unfold secpP secpN; decide +kernel'
    out.append(f'''/-- {doc} -/
theorem nonce_{name} : ecdsaDeterministic ({secret or X}) ({term}) 10000 ≠ none := by
  rw [{digest}]
  exact deterministic_ne (e := 0x{int.from_bytes(D, 'big'):064x}) (r := 0x{root(D, d):064x}) (by decide) ({s}) (by decide +kernel) candidates_{name} ({s}) ({s})
    (by decide +kernel) ({s}) ({s}) ({s}) ({spn}) ({sp})
''')

def var(b): return bytes([len(b)]) + b
def txout(a, s): return struct.pack('<Q', a) + var(s)
SEC = b'\x02' + GX.to_bytes(32, 'big')
KH = h160(SEC)
PKH = b'\x76\xa9\x14' + KH + b'\x88\xac'
WPKH = b'\x00\x14' + KH
SH = b'\xa9\x14' + h160(WPKH) + b'\x87'
scripts = dict(legacy=PKH, nested=SH, segwit=WPKH)
parents = {k: struct.pack('<I', 1) + b'\0' + b'\x01' + txout(5000, s) + bytes(4) for k, s in scripts.items()}
SEQ = struct.pack('<I', 0xfffffffd)
prev = {k: dsha(p) + bytes(4) for k, p in parents.items()}
kinds = ['legacy', 'nested', 'segwit']

def payment(amount):
    o = txout(amount, b'\x51')
    pre = {}
    pre['legacy'] = struct.pack('<I', 2) + b'\x03' + b''.join(prev[k] + var(PKH if k == 'legacy' else b'') + SEQ for k in kinds) + b'\x01' + o + bytes(4) + struct.pack('<I', 1)
    for k in kinds[1:]:
        pre[k] = (struct.pack('<I', 2) + dsha(b''.join(prev[j] for j in kinds)) + dsha(SEQ * 3) + prev[k] + var(PKH) + struct.pack('<Q', 5000) + SEQ + dsha(o)
                  + bytes(4) + struct.pack('<I', 1))
    return o, pre

amount = 14000
while True:
    o, pre = payment(amount)
    if all(root(dsha(pre[k]), 1) for k in kinds): break
    amount -= 1

sec_a, sec_b = SEC, WPKH
t1, t2 = sha_thm(SEC), sha_thm(WPKH)
out.append(f'''theorem keyHash_one : Spec.hash160 (secOf keyOne.pubKey.compressed ((1 : Nat) • G)) = {be(KH)} := by
  rw [one_nsmul, show keyOne.pubKey.compressed = true from rfl, secOf_G]
  unfold Spec.hash160
  rw [show (2 : UInt8) :: beBytes 32 secpGx = {be(SEC)} by decide +kernel, {t1}]
  decide +kernel
''')
out.append(f'''theorem nestedHash_one : Spec.hash160 (p2wpkhScript ({be(KH)})) = {be(h160(WPKH))} := by
  unfold Spec.hash160
  rw [show p2wpkhScript ({be(KH)}) = {be(WPKH)} by decide +kernel, {t2}]
  decide +kernel
''')
code = f'p2pkhScript ({be(KH)})'
lscript = dict(legacy=code, nested=f'p2shScript ({be(h160(WPKH))})', segwit=f'p2wpkhScript ({be(KH)})')
full = dict(legacy='keyHash_one', nested='keyHash_one, nestedHash_one', segwit='keyHash_one')
H1 = 'Spec.hash160 (secOf keyOne.pubKey.compressed ((1 : Nat) • G))'
uns = dict(legacy=f'p2pkhScript ({H1})', nested=f'p2shScript (Spec.hash160 (p2wpkhScript ({H1})))', segwit=f'p2wpkhScript ({H1})')
for k in kinds:
    term = hash256_term(parents[k])
    out.append(f'''theorem input_{k} : (exFund .{k}).input = ⟨{be(dsha(parents[k]))}, 0, [], 0xfffffffd, []⟩ := by
  show In.mk (Spec.hash256 (legacyBytes ⟨1, [], [⟨5000, {uns[k]}⟩], 0⟩)) 0 [] 0xfffffffd [] = _
  rw [{full[k]}, {term}]
''')
ins = ', '.join(f'⟨{be(dsha(parents[k]))}, 0, [], 0xfffffffd, []⟩' for k in kinds)
out.append(f'''/-- The outputs that are spent. -/
noncomputable def exFunds : List Fund := [exFund .legacy, exFund .nested, exFund .segwit]

/-- What is paid. -/
def exOuts : List (TxOut × Out) := [({{ amount := {amount}, scriptPubkey := holder [0x51] }}, ⟨{amount}, [0x51]⟩)]

def exDraft : Transaction := ⟨2, [{ins}], [⟨{amount}, [0x51]⟩], 0⟩

theorem draft_one : draft 2 0 exFunds (exOuts.map Prod.snd) = exDraft := by
  unfold draft exFunds exDraft
  simp only [List.map_cons, List.map_nil, input_legacy, input_nested, input_segwit]
  rfl
''')
for i, k in enumerate(kinds):
    D = dsha(pre[k])
    if k == 'legacy':
        body = f'''  show legacySigHash exDraft 0 (p2pkhScript ({H1})) 1 = _
  rw [keyHash_one]
  unfold legacySigHash
  rw [if_neg (by decide +kernel), {hash256_term(pre[k])}]
'''
    else:
        parts = [b''.join(prev[j] for j in kinds), SEQ * 3, o]
        terms = ' '.join('(' + hash256_term(p) + ')' for p in parts)
        body = f'''  show segwitSigHash exDraft {i} (exFund .{k}).input (p2pkhScript ({H1})) 5000 1 = _
  rw [keyHash_one, input_{k}]
  exact segwitSigHash_of {terms} (by decide +kernel) {sha_thm(pre[k])} {sha_thm(sha(pre[k]))}
'''
    out.append(f'theorem digest_{k} : (exFund .{k}).digest exDraft {i} = {be(D)} := by\n{body}')
    nonce(k, 1, D, f'(exFund .{k}).digest exDraft {i}', f'digest_{k}', f'The signature of input {i} can be made.')

solo = 4000
while True:
    so = txout(solo, b'\x51')
    spre = struct.pack('<I', 2) + dsha(prev['segwit']) + dsha(SEQ) + prev['segwit'] + var(PKH) + struct.pack('<Q', 5000) + SEQ + dsha(so) + bytes(4) + struct.pack('<I', 1)
    if root(dsha(spre), 1): break
    solo -= 1
out.append(f'''def soloOuts : List (TxOut × Out) := [({{ amount := {solo}, scriptPubkey := holder [0x51] }}, ⟨{solo}, [0x51]⟩)]

def soloDraft : Transaction := ⟨2, [⟨{be(dsha(parents['segwit']))}, 0, [], 0xfffffffd, []⟩], [⟨{solo}, [0x51]⟩], 0⟩

theorem draft_solo : draft 2 0 [exFund .segwit] (soloOuts.map Prod.snd) = soloDraft := by
  unfold draft soloDraft
  simp only [List.map_cons, List.map_nil, input_segwit]
  rfl
''')
terms = ' '.join('(' + hash256_term(q) + ')' for q in [prev['segwit'], SEQ, so])
out.append(f'''theorem digest_solo : (exFund .segwit).digest soloDraft 0 = {be(dsha(spre))} := by
  show segwitSigHash soloDraft 0 (exFund .segwit).input (p2pkhScript ({H1})) 5000 1 = _
  rw [keyHash_one, input_segwit]
  exact segwitSigHash_of {terms} (by decide +kernel) {sha_thm(spre)} {sha_thm(sha(spre))}
''')
nonce('solo', 1, dsha(spre), '(exFund .segwit).digest soloDraft 0', 'digest_solo', 'The signature can be made.')

head = '''import Verif.Lemmas.Nonce
import Verif.Props.Payment
import Verif.Props.PSBTMine

/-
C109 for a payment with nothing left open: the key with the secret 1 spends one output of each kind.  Written by tools/payvector.py: the values
of the hash functions on the way to the nonces of the three signatures; all of them are checked here.
-/

namespace UB
open Spec
namespace Payment

attribute [local irreducible] Spec.sha256 Spec.hash256 secpP secpN

'''
tail = '''end Payment
end UB
'''
extra = r'''theorem exFunds_nonces (i : Nat) (f : Fund) (h : exFunds[i]? = some f) :
    ecdsaDeterministic (beBytes 32 f.d) (f.digest (draft 2 0 exFunds (exOuts.map Prod.snd)) i) 10000 ≠ none := by
  rw [draft_one]
  unfold exFunds at h
  match i with
  | 0 => cases h; exact nonce_legacy
  | 1 => cases h; exact nonce_nested
  | 2 => cases h; exact nonce_segwit
  | _ + 3 => simp at h

theorem exFunds_owned : ∀ f ∈ exFunds, f.Owned := by simp [exFunds, exFund_owned]

theorem exOuts_hold : ∀ p ∈ exOuts, p.1.Holds p.2 ∧ ValidOut p.2 := by
  simp only [exOuts, List.mem_cons, List.not_mem_nil, or_false, forall_eq]
  exact ⟨⟨rfl, holder_holds _⟩, ⟨by decide, by decide⟩⟩

/-- C109_payment_partial, with all hypotheses met: the three outputs of 5000 satoshi are spent, and the text of the payment is read as this payment. -/
example : ∃ t y text, pay 2 0 (exFunds.map Fund.coin) (exOuts.map Prod.fst) (fun _ _ => (BN.one, BN.one)) = .ok t ∧ t.Holds y ∧ Pays 2 0 exFunds (exOuts.map Prod.snd) y ∧
    stringOf t.toStream t.length = .ok text ∧ (({} : Tx).fromStream (hexStream text).abs).1.Holds y := by
  obtain ⟨t, y, text, h1, h2, h3, h4, h5⟩ := C109_payment_partial 2 0 exFunds_owned (by simp [exFunds]) (by simp [exFunds]) (by simp [exOuts]) exOuts_hold
    (rnd := fun _ _ => (BN.one, BN.one)) (fun _ => draws_one) exFunds_nonces
  exact ⟨t, y, text, h1, h2, h3, h4, (h5 {} rfl).2.1⟩

/-- C109_id_changes, with all hypotheses met. -/
example : ∃ t0 t y, unsigned 2 0 (exFunds.map Fund.coin) (exOuts.map Prod.fst) = .ok t0 ∧ t0.Holds exDraft ∧
    pay 2 0 (exFunds.map Fund.coin) (exOuts.map Prod.fst) (fun _ _ => (BN.one, BN.one)) = .ok t ∧ t.Holds y ∧ legacyBytes exDraft ≠ legacyBytes y := by
  obtain ⟨t0, t, y, h1, h2, h3, h4, h5, -⟩ := C109_id_changes 2 0 exFunds_owned (by simp [exFunds]) (by simp [exOuts]) exOuts_hold
    (rnd := fun _ _ => (BN.one, BN.one)) (fun _ => draws_one) exFunds_nonces ⟨exFund .legacy, by simp [exFunds], by decide⟩
  rw [draft_one] at h2 h5
  exact ⟨t0, t, y, h1, h2, h3, h4, h5⟩

/-- C109_id, with all hypotheses met: an output of the last kind is spent, and the id does not change. -/
example : ∃ t0 t y, unsigned 2 0 [(exFund .segwit).coin] (soloOuts.map Prod.fst) = .ok t0 ∧ t0.Holds soloDraft ∧
    pay 2 0 [(exFund .segwit).coin] (soloOuts.map Prod.fst) (fun _ _ => (BN.one, BN.one)) = .ok t ∧ t.Holds y ∧ t.txid = t0.txid := by
  obtain ⟨t0, t, y, h1, h2, h3, h4, h5, -⟩ := C109_id 2 0 (fs := [exFund .segwit]) (by simp [exFund_owned]) (by simp) (outs := soloOuts) (by simp [soloOuts]) (by
      simp only [soloOuts, List.mem_cons, List.not_mem_nil, or_false, forall_eq]
      exact ⟨⟨rfl, holder_holds _⟩, ⟨by decide, by decide⟩⟩)
    (rnd := fun _ _ => (BN.one, BN.one)) (fun _ => draws_one) (by
      intro i f h
      rw [draft_solo]
      match i with
      | 0 => cases h; exact nonce_solo
      | _ + 1 => simp at h) (by simp [exFund])
  rw [draft_solo] at h2
  exact ⟨t0, t, y, h1, h2, h3, h4, h5⟩

'''
open('/verif/lean/Verif/Props/PaymentVector.lean', 'w').write(head + '\n'.join(out) + '\n' + extra + tail)
print(amount, len(names))

# The second file.
out.clear(); names.clear(); prefix = 'signValue'
def add(p, q):
    if p is None: return q
    if q is None: return p
    if p[0] == q[0]:
        if (p[1] + q[1]) % P == 0: return None
        m = 3 * p[0] * p[0] * pow(2 * p[1], -1, P) % P
    else:
        m = (q[1] - p[1]) * pow(q[0] - p[0], -1, P) % P
    x = (m * m - p[0] - q[0]) % P
    return (x, (m * (p[0] - x) - p[1]) % P)
GY = 0x483ADA7726A3C4655DA4FBFC0E1108A8FD17B448A68554199C47D08FFB10D4B8
DEV = 0x220673a4162329394e296b728d907e28154532fc7e90c263da05831d0de15297
def multiple(k):
    """k·G and the steps to it."""
    acc = (GX, GY); steps = []
    for bit in bin(k)[3:]:
        d2 = add(acc, acc)
        if bit == '1':
            acc = add(d2, (GX, GY)); steps.append(f'((0x{d2[0]:x}, 0x{d2[1]:x}), some (0x{acc[0]:x}, 0x{acc[1]:x}))')
        else:
            acc = d2; steps.append(f'((0x{d2[0]:x}, 0x{d2[1]:x}), none)')
    return acc, steps
def sec(p): return bytes([2 + p[1] % 2]) + p[0].to_bytes(32, 'big')
def multiple_thm(name, k, term):
    acc, steps = multiple(k)
    out.append(f'def {name}Steps : List MulStep := [\n  ' + ',\n  '.join(steps) + ']\n')
    out.append(f"""theorem {name}_at : At ({term} • G) ((0x{acc[0]:x} : Nat) : Fp) ((0x{acc[1]:x} : Nat) : Fp) := by
  have := mulCheck_sound {name}Steps 1 (secpGx, secpGy) (0x{acc[0]:x}, 0x{acc[1]:x}) (by rw [one_nsmul]; exact at_G) (by decide +kernel)
  rw [show mulScalar 1 {name}Steps = {term} by decide +kernel] at this
  exact this

theorem {name}_sec : secOf true ({term} • G) = {be(sec(acc))} := by
  unfold secOf secBytes
  rw [xNat_at {name}_at, yNat_at {name}_at, ZMod.val_natCast_of_lt (by unfold secpP; decide +kernel), ZMod.val_natCast_of_lt (by unfold secpP; decide +kernel)]
  decide +kernel
""")
def hash_thm(name, k, term):
    s = sec(multiple(k)[0])
    out.append(f"""theorem {name}_hash : Spec.hash160 (secOf true ({term} • G)) = {be(h160(s))} := by
  unfold Spec.hash160
  rw [{name}_sec, {sha_thm(s)}]
  decide +kernel
""")
devsec = sec(multiple(DEV)[0])
parent = struct.pack('<I', 2) + b'\x01' + b'\x07' * 32 + struct.pack('<I', 3) + b'\x02\x51\x52' + struct.pack('<I', 0xfffffffe) + b'\x02' + txout(5000000000, b'\x6a') * 2 + struct.pack('<I', 17)
pid = dsha(parent)
SEQ = struct.pack('<I', 0xfffffffe)
outs = txout(4999990000, b'\x51')
NEG = b'\x03' + GX.to_bytes(32, 'big')
multi = b'\x51\x21' + NEG + b'\x21' + SEC + b'\x52\xae'
DKH = h160(devsec)
DPKH = b'\x76\xa9\x14' + DKH + b'\x88\xac'
def preimage(code, amount=5000):
    return struct.pack('<I', 2) + dsha(pid + bytes(4)) + dsha(SEQ) + pid + bytes(4) + var(code) + struct.pack('<Q', amount) + SEQ + dsha(outs) + bytes(4) + struct.pack('<I', 1)
out.append(f"""theorem exParent_id : Spec.hash256 (legacyBytes exTxSpec) = {be(pid)} := {hash256_term(parent)}
""")
IN = f'⟨{be(pid)}, 0, [], 0xfffffffe, []⟩'
TX = f'(⟨2, [{IN}], [⟨4999990000, [0x51]⟩], 0⟩ : Transaction)'
out.append(f"""theorem exPsbtTx_value : exPsbtTx = {TX} := by
  unfold exPsbtTx
  rw [exParent_id]
""")
out.append(f"""theorem exMulti_value : exMulti = {be(multi)} := by
  have hx : xNat G = secpGx := by rw [xNat_at at_G, ZMod.val_natCast_of_lt (by unfold secpP; decide +kernel)]
  have hy : yNat G = secpGy := by rw [yNat_at at_G, ZMod.val_natCast_of_lt (by unfold secpP; decide +kernel)]
  unfold exMulti
  rw [secOf_neg G_ne_zero, hx, hy, secOf_G]
  decide +kernel
""")
multiple_thm('device', DEV, 'exDeviceKey')
hash_thm('device', DEV, 'exDeviceKey')
pts = [pid + bytes(4), SEQ, outs]
def digest(name, term, rws, code, d, amount=5000):
    p = preimage(code, amount)
    assert root(dsha(p), d), name
    terms = ' '.join('(' + hash256_term(q) + ')' for q in pts)
    out.append(f"""theorem digest_{name} : {term} = {be(dsha(p))} := by
  rw [exPsbtTx_value, exParent_id, {rws}]
  exact segwitSigHash_of {terms} (by decide +kernel) {sha_thm(p)} {sha_thm(sha(p))}
""")
term = 'segwitSigHash exPsbtTx 0 ⟨Spec.hash256 (legacyBytes exTxSpec), 0, [], 0xfffffffe, []⟩ exMulti 5000 1'
digest('multi', term, 'exMulti_value', multi, 1)
nonce('multi', 1, dsha(preimage(multi)), term, 'digest_multi', 'The owner of the key 1 can sign for the 1-of-2 output of C103.')
term = 'segwitSigHash exPsbtTx 0 ⟨Spec.hash256 (legacyBytes exTxSpec), 0, [], 0xfffffffe, []⟩ (p2pkhScript (Spec.hash160 (secOf true (exDeviceKey • G)))) 5000 1'
digest('device', term, 'device_hash', DPKH, DEV)
nonce('device', DEV, dsha(preimage(DPKH)), term, 'digest_device', 'The device of C107 can sign.', 'beBytes 32 exDeviceKey')
# The account with the secret 1 and the chain code 0; change 0, index 5.
def child(d, c, i):
    I = hmac.new(c, sec(multiple(d)[0]) + struct.pack('>I', i), hashlib.sha512).digest()
    return (int.from_bytes(I[:32], 'big') + d) % N, I[32:], I
E1, C1, I1 = child(1, bytes(32), 0)
E2, C2, I2 = child(E1, C1, 5)
ESEC = sec(multiple(E2)[0])
EPKH = b'\x76\xa9\x14' + h160(ESEC) + b'\x88\xac'
multiple_thm('account', E1, f'0x{E1:x}')
multiple_thm('electrum', E2, f'0x{E2:x}')
hash_thm('electrum', E2, f'0x{E2:x}')
out.append(f"""theorem account_child : childKey 1 (zeros 32) 0 = (0x{E1:x}, {be(C1)}) := by
  have h : childHash 1 (zeros 32) 0 = {be(I1)} := by
    unfold childHash
    rw [if_neg (by decide), one_nsmul, secOf_G]
    decide +kernel
  unfold childKey
  rw [h]
  unfold secpN
  decide +kernel

theorem electrum_child : childKey 0x{E1:x} ({be(C1)}) 5 = (0x{E2:x}, {be(C2)}) := by
  have h : childHash 0x{E1:x} ({be(C1)}) 5 = {be(I2)} := by
    unfold childHash
    rw [if_neg (by decide), account_sec]
    decide +kernel
  unfold childKey
  rw [h]
  unfold secpN
  decide +kernel

theorem electrum_secret : exElectrumInfo.secret 1 (zeros 32) = 0x{E2:x} := by
  show (keyAt 1 (zeros 32) [0, 5]).1 = _
  unfold keyAt
  rw [account_child]
  unfold keyAt
  rw [electrum_child]
  rfl
""")
term = 'segwitSigHash exPsbtTx 0 ⟨Spec.hash256 (legacyBytes exTxSpec), 0, [], 0xfffffffe, []⟩ (p2pkhScript (Spec.hash160 (secOf true (0x%x • G)))) 5000000000 1' % E2
digest('electrum', term, 'electrum_hash', EPKH, E2, 5000000000)
nonce('electrum', E2, dsha(preimage(EPKH, 5000000000)), term, 'digest_electrum', 'The owner of the account of C72 can sign.')
out.append("""theorem electrum_signable : exElectrumInfo.Signable 1 (zeros 32) exPsbtTx 0 exElectrumIn := by
  unfold ElectrumInfo.Signable ElectrumInfo.digest ElectrumInfo.keyHash
  rw [electrum_secret, if_neg (by simp [ElectrumInfo.Legacy, exElectrumInfo])]
  exact ⟨by decide, nonce_electrum⟩
""")
extra = r"""/-- C103_cosigners, with all hypotheses met. -/
example : ∃ g, exSigner.Returns exMultiDoc 0 g ∧
    InputOk (exPsbtTx.setIn 0 ⟨Spec.hash256 (legacyBytes exTxSpec), 0, [], 0xfffffffe, [[], g.item, exMulti]⟩) 0 5000 (p2wshScript (Spec.sha256 exMulti)) :=
  exMulti_spends (by rw [exKeyAt]; exact nonce_multi)

/-- C107_seed_partial and C107_spends, with all hypotheses met: from the seed of the first test vector of BIP 32 to a signature in the answer of the device that
spends the output. -/
example (junk : Nat → Bytes) : ∃ (root : HDPriv) (p' q : PSBT) (n : UInt8) (out : PsbtDoc) (fs' : List InField) (g : SigEntry),
    ({} : HDPriv).fromSeed vectorSeed mainnet BN.one = .ok root ∧
    ({} : PSBT).parseBase64 junk (base64Text true false (exDeviceDoc.bytes ++ [])) = .ok (p', exDeviceDoc.bytes.length + 0) ∧ p'.sign root exEnv = .ok (q, n) ∧
    q.toBase64 = .ok (base64Text true false out.bytes) ∧ out.ins[0]? = some fs' ∧ .partialSig g ∈ fs' ∧
    InputOk (exPsbtTx.setIn 0 ⟨Spec.hash256 (legacyBytes exTxSpec), 0, [], 0xfffffffe, [g.item, secOf true (exDeviceKey • G)]⟩) 0 5000 exDeviceScript :=
  exDevice_spends junk nonce_device

/-- C72_document, with all hypotheses met. -/
example (junk : Bytes) (rest : Bytes) :
    ∃ e e' y, ({} : ElectrumTx).fromStream junk 2 (.of (electrumSegwit exPsbtTx [exElectrumKey 5000000000] ++ rest)) =
        some (e, (electrumSegwit exPsbtTx [exElectrumKey 5000000000]).length, .of rest) ∧
      e.sign hdOne ⟨fun _ => BN.one, fun _ => BN.one, fun _ _ => (BN.one, BN.one)⟩ = .ok (e', 1) ∧ e'.tx.Holds y ∧ SameButScripts exPsbtTx y ∧
      InputOk y 0 exElectrumInfo.amount (p2wpkhScript (exElectrumInfo.keyHash 1 (zeros 32))) :=
  exElectrum_spends junk rest electrum_signable

"""
head = """import Verif.Lemmas.Nonce
import Verif.Lemmas.CurveVector
import Verif.Props.Cosign
import Verif.Props.Device
import Verif.Props.Electrum
import Verif.Props.PSBTMine

/-
The examples of C72, C103 and C107 with nothing left open.  Written by tools/payvector.py: the values of the hash functions on the way to the nonces, and the
public keys; all of them are checked here.
-/

namespace UB
open Spec

attribute [local irreducible] Spec.sha256 Spec.hash256 secpP secpN

"""
open('/verif/lean/Verif/Props/SignVector.lean', 'w').write(head + '\n'.join(out) + '\n' + extra + 'end UB\n')
print(len(names))
