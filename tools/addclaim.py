"""usage: addclaim.py file.json -- adds a property, its rows of DESIGN.md, its status and its imports.
Keys: prop (entry of properties.jsonl), plan (row of section 3 without the id), finding (line of section 5 or null), status, note, imports."""
import json, sys, subprocess
root = '/verif/'
for c in json.load(open(sys.argv[1])):
    i = c['prop']['id']
    with open(root + 'properties.jsonl', 'a') as f: f.write(json.dumps(c['prop']) + '\n')
    s = open(root + 'DESIGN.md').read()
    prev = [l for l in s.split('\n') if l.startswith('| C')][-1]
    rows = [l for l in s[:s.index('## 4.')].split('\n') if l.startswith('| C')]
    s = s.replace(rows[-1], rows[-1] + '\n| %s | %s |' % (i, c['plan']))
    if c.get('finding'): s = s.rstrip('\n') + '\n* ' + c['finding'] + '\n'
    for old, new in c.get('design', []):
        assert s.count(old) == 1, old
        s = s.replace(old, new)
    open(root + 'DESIGN.md', 'w').write(s)
    v = open(root + 'lean/Verif.lean').read().rstrip('\n')
    for m in c['imports']: v += '\nimport ' + m
    open(root + 'lean/Verif.lean', 'w').write(v + '\n')
    subprocess.run(['python3', root + 'tools/setstatus.py', i, c['status'], c['note']], check=True)
