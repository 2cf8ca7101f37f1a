#!/usr/bin/env python3
"""Write AXIOMS.md: the axioms each theorem named in MANIFEST.json depends on (run after `lake build`)."""
import json, os, re, subprocess, tempfile
root = os.path.dirname(os.path.dirname(os.path.abspath(__file__)))
claims = json.load(open(root + '/MANIFEST.json'))['claims']
names = [t for c in claims for t in c['theorems']]
with tempfile.NamedTemporaryFile('w', suffix='.lean', delete=False) as f:
    f.write('import Verif\n' + ''.join(f'#print axioms {n}\n' for n in names))
out = subprocess.run(['lake', 'env', 'lean', f.name], cwd=root + '/lean', capture_output=True, text=True)
assert out.returncode == 0, out.stdout + out.stderr
text = re.sub(r'\s+', ' ', out.stdout)
ax = {}
for m in re.finditer(r"'([^']+(?:'[^' ]*)*)' (?:depends on axioms: \[([^\]]*)\]|does not depend on any axioms)", text):
    ax[m.group(1)] = m.group(2) or 'none'
assert all(n in ax for n in names), [n for n in names if n not in ax]
allowed = {'propext', 'Classical.choice', 'Quot.sound'}
used = {a for v in ax.values() if v != 'none' for a in v.split(', ')}
assert used <= allowed, used - allowed
with open(root + '/AXIOMS.md', 'w') as f:
    f.write('# Axioms per theorem\n\nGenerated by `tools/gen_axioms.py` from `#print axioms`.\n\n| property | theorem | axioms |\n|---|---|---|\n')
    for c in claims:
        for t in c['theorems']:
            f.write(f"| {c['property']} | `{t}` | {ax[t]} |\n")
print(len(names), sorted(used))
