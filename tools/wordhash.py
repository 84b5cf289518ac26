#!/usr/bin/env python3
"""Generate lean/Verif/Lemmas/WordlistHash.lean: the SHA-256 of the word list, in pieces that the kernel can evaluate."""
import re, hashlib
w = re.findall(r'^"(\w+)",', open('/repo/src/utility/trezor/bip39_english.h').read(), re.M)
m = ''.join(x + '\n' for x in w).encode()
dig = hashlib.sha256(m).hexdigest()
assert dig == '2f5eed53a4727b4bf8880d8f3f199efc90e58503646d9ff8eff3a2ed3b24dbda'
pad = m + b'\x80'
pad += bytes((56 - len(pad)) % 64) + (8 * len(m)).to_bytes(8, 'big')
pr = [n for n in range(2, 410) if all(n % d for d in range(2, n))][:64]
def iroot(k, n):
    lo, hi = 0, 1 << 60
    while hi - lo > 1:
        mid = (lo + hi) // 2
        if mid ** k <= n: lo = mid
        else: hi = mid
    return lo
K = [iroot(3, p << 96) & 0xffffffff for p in pr]
H = [iroot(2, p << 64) & 0xffffffff for p in pr[:8]]
def rr(x, n): return ((x >> n) | (x << (32 - n))) & 0xffffffff
def comp(H, b):
    W = [int.from_bytes(b[4*i:4*i+4], 'big') for i in range(16)]
    for t in range(16, 64):
        s0 = rr(W[t-15], 7) ^ rr(W[t-15], 18) ^ (W[t-15] >> 3)
        s1 = rr(W[t-2], 17) ^ rr(W[t-2], 19) ^ (W[t-2] >> 10)
        W.append((W[t-16] + s0 + W[t-7] + s1) & 0xffffffff)
    a, b_, c, d, e, f, g, h = H
    for t in range(64):
        t1 = (h + (rr(e, 6) ^ rr(e, 11) ^ rr(e, 25)) + ((e & f) ^ (~e & g)) + K[t] + W[t]) & 0xffffffff
        t2 = ((rr(a, 2) ^ rr(a, 13) ^ rr(a, 22)) + ((a & b_) ^ (a & c) ^ (b_ & c))) & 0xffffffff
        a, b_, c, d, e, f, g, h = (t1 + t2) & 0xffffffff, a, b_, c, (d + t1) & 0xffffffff, e, f, g
    return [(x + y) & 0xffffffff for x, y in zip([a, b_, c, d, e, f, g, h], H)]
S = 1024
parts = [pad[i:i+S] for i in range(0, len(pad), S)]
st = [H]
for p in parts:
    h = st[-1]
    for i in range(0, len(p), 64): h = comp(h, p[i:i+64])
    st.append(h)
assert ''.join('%08x' % x for x in st[-1]) == dig
n = len(parts)
NB = len(pad) // 64
out = ['''import Verif.Lemmas.Wordlist
import Verif.Lemmas.FastSha

/-
The word list is the one published with BIP39: this is the SHA-256 of the file english.txt, one word per line.
Generated by tools/wordhash.py: the text as numbers, and chaining values in between.
-/

namespace UB
open Spec
''']
N = 128
tx = []
for i in range(0, 2048, N):
    t = ''.join(x + '\n' for x in w[i:i+N]).encode()
    tx.append(t)
    out.append(f'''theorem listText{i//N} : (wordCodes{i//N}.map wordBytes).flatMap (· ++ [10]) = beBytes {len(t)}
    0x{t.hex()} := by decide +kernel
''')
out.append(f'''def listText : Nat := 0x{m.hex()}

def listPadded : Nat := 0x{pad.hex()}

theorem listText_eq : wordlist.flatMap (· ++ [10]) = beBytes {len(m)} listText := by
  unfold wordlist wordCodes
  simp only [List.map_append, List.flatMap_append]''')
e = 'listText0'
for i in range(1, len(tx)):
    cur = b''.join(tx[:i+1])
    if i < len(tx) - 1:
        out.append(f'  have h{i} := FastSha.join_bytes (c := {len(cur)}) (k := 0x{cur.hex()}) {e} listText{i} (by decide +kernel) (by decide +kernel) (by decide +kernel)')
        e = f'h{i}'
    else:
        out.append(f'  exact FastSha.join_bytes {e} listText{i} (by decide +kernel) (by decide +kernel) (by decide +kernel)')
tail = pad[len(m):]
out.append(f'''
theorem listPadded_eq : sha256P.pad (wordlist.flatMap (· ++ [10])) = beBytes (64 * {NB}) listPadded := by
  unfold Sha2.pad
  rw [listText_eq, length_beBytes, List.append_assoc, List.append_assoc]
  refine FastSha.join_bytes (b := {len(tail)}) (m := 0x{tail.hex()}) rfl ?_ (by decide +kernel) (by decide +kernel) (by decide +kernel)
  decide +kernel
''')
for i, h in enumerate(st):
    out.append(f'def listState{i} : Regs Nat := ⟨' + ', '.join('0x%08x' % x for x in h) + '⟩\n')
left = NB
for i, p in enumerate(parts):
    out.append(f'theorem listRun{i} : FastSha.run listPadded {left} {len(p)//64} listState{i} = listState{i+1} := by decide +kernel\n')
    left -= len(p) // 64
out.append('''theorem wordlist_hash : Spec.sha256 (wordlist.flatMap (· ++ [10])) =
    Spec.beBytes 32 0x%s := by
  have h : FastSha.nats (sha256P.chain sha256P.h0 (sha256P.pad (wordlist.flatMap (· ++ [10])))) = listState%d := by
    rw [listPadded_eq, FastSha.chain_eq, show FastSha.nats sha256P.h0 = listState0 by decide +kernel]''' % (dig, n))
for i in range(n):
    out.append(f'    rw [FastSha.chain_step listRun{i} (by decide)]')
out.append('''    rfl
  unfold Spec.sha256 Sha2.hash
  rw [FastSha.nats_inj (h.trans (show listState%d = FastSha.nats ⟨%s⟩ by decide +kernel))]
  decide +kernel

end UB''' % (n, ', '.join('0x%08x' % x for x in st[-1])))
open('/verif/lean/Verif/Lemmas/WordlistHash.lean', 'w').write('\n'.join(out) + '\n')
