#!/usr/bin/env python3
"""Generate lean/Verif/Model/Wordlist.lean from /repo/src/utility/trezor/bip39_english.h."""
import re
w = re.findall(r'^"(\w+)",', open('/repo/src/utility/trezor/bip39_english.h').read(), re.M)
assert len(w) == 2048
out = ['''import Verif.Model.Base

/-
bip39_english.h:24-2074, the word list.  Generated by tools/wordlist.py: each number is a word, its
ASCII characters as base-256 digits, most significant first.
-/

namespace UB

/-- The characters of a word. -/
def wordBytes (n : Nat) : Bytes := go 8 n []
where
  go : Nat → Nat → Bytes → Bytes
    | 0, _, acc => acc
    | k + 1, n, acc => if n = 0 then acc else go k (n / 256) (UInt8.ofNat (n % 256) :: acc)
''']
for i in range(0, 2048, 128):
    out.append(f'def wordCodes{i//128} : List Nat := [')
    for j in range(i, i + 128, 4):
        ws = w[j:j+4]
        last = j + 4 == i + 128
        out.append('  ' + ', '.join('0x' + x.encode().hex() for x in ws) + (']' if last else ',') + '  -- ' + ' '.join(ws))
    out.append('')
out.append('def wordCodes : List Nat :=\n  ' + ' ++\n  '.join(' ++ '.join(f'wordCodes{i}' for i in range(k, k + 4)) for k in range(0, 16, 4)))
out.append('''
/-- bip39_english.h:24 `wordlist`, without the null pointer at its end. -/
def wordlist : List Bytes := wordCodes.map wordBytes

end UB''')
open('/verif/lean/Verif/Model/Wordlist.lean', 'w').write('\n'.join(out) + '\n')
