"""usage: setstatus.py ID status note"""
import json, sys
p = '/verif/tools/status.json'
d = json.load(open(p))
d[sys.argv[1]] = {"status": sys.argv[2], "note": sys.argv[3]}
json.dump(dict(sorted(d.items())), open(p, 'w'), indent=1)
