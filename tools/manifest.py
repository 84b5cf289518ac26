#!/usr/bin/env python3
"""Rebuild MANIFEST.json: theorems are collected from lean/Verif/Props by their Cnn_ prefix,
status and notes come from tools/status.json."""
import json, re, glob, os
root = os.path.dirname(os.path.dirname(os.path.abspath(__file__)))
thms = {}
for f in sorted(glob.glob(root + '/lean/Verif/Props/**/*.lean', recursive=True)):
    ns = []
    for line in open(f):
        if m := re.match(r'namespace (\S+)', line): ns.append(m.group(1))
        elif m := re.match(r'end (\S+)', line):
            if ns and ns[-1] == m.group(1): ns.pop()
        elif m := re.match(r'(?:private )?theorem ((?:\w+\.)?(C\d+)_[^\s:({\[]+)', line):
            thms.setdefault(m.group(2), []).append('.'.join(ns + [m.group(1)]))
status = json.load(open(root + '/tools/status.json'))
props = [json.loads(l)['id'] for l in open(root + '/properties.jsonl')]
claims = []
for p in props:
    st = status.get(p)
    if st is None or (not thms.get(p) and st['status'] != 'not_applicable'):
        continue
    claims.append({'property': p, 'status': st['status'], 'theorems': thms.get(p, []), 'note': st['note']})
for p in thms:
    if p not in status: print('no status for', p)
json.dump({'claims': claims}, open(root + '/MANIFEST.json', 'w'), indent=1)
print(len(claims), 'claims', sum(len(c['theorems']) for c in claims), 'theorems; missing', [p for p in props if p not in [c['property'] for c in claims]])
