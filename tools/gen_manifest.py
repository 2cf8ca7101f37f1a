#!/usr/bin/env python3
"""Build MANIFEST.json: collect the theorems cNN_* from lean/Verif/Props and attach status and notes."""
import glob, json, os, re, sys
root = os.path.dirname(os.path.dirname(os.path.abspath(__file__)))
names = {}
for f in sorted(glob.glob(root + '/lean/Verif/Props/*.lean')):
    ns = []
    for line in open(f):
        m = re.match(r'namespace\s+(\S+)', line)
        if m: ns.append(m.group(1))
        m = re.match(r'end\s+(\S+)', line)
        if m and ns and ns[-1] == m.group(1): ns.pop()
        m = re.match(r'(?:protected )?theorem\s+((c\d\d\d?)_\S+)', line)
        if m: names.setdefault(m.group(2).upper(), []).append('.'.join(ns + [m.group(1)]))
status = json.load(open(root + '/tools/status.json'))
claims = []
for line in open(root + '/properties.jsonl'):
    p = json.loads(line)['id']
    s = status.get(p)
    if p in names:
        claims.append({"property": p, "status": (s or {}).get("status", "proved"), "theorems": names[p], "note": (s or {}).get("note", "")})
    elif s:
        claims.append({"property": p, "status": s["status"], "theorems": [], "note": s["note"]})
    else:
        print('no theorem for', p, file=sys.stderr)
json.dump({"claims": claims}, open(root + '/MANIFEST.json', 'w'), indent=1)
