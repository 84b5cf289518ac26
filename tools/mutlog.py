#!/usr/bin/env python3
"""Append the results of a batch of wrong programs (one JSON object per line) to seeded/LOG.jsonl."""
import json, sys
with open('seeded/LOG.jsonl', 'a') as out:
    for line in open(sys.argv[1]):
        d = json.loads(line)
        if d == "END" or 'error' in d:
            if d != "END": print('skipped', d.get('def'), d['error'])
            continue
        out.write(json.dumps({
            'definition': d['definition'], 'file': d['file'], 'edit': d['edit'], 'claim_broken': d['claim_broken'],
            'theorems_failed': d['failed'], 'claim_theorems_blocked_behind_failed_lemmas': d['claim_theorems_blocked_behind_failed_lemmas'],
            'survived': d['survived'], 'theorems_tightened': d.get('tightened', [])}) + '\n')
