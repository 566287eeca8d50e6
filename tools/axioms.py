"""Writes AXIOMS.md: the axioms of every theorem named in MANIFEST.json, as printed by Lean.  Run after `lake build`."""
import json, os, re, subprocess, tempfile
ROOT = os.path.dirname(os.path.dirname(os.path.abspath(__file__)))
claims = json.load(open(f'{ROOT}/MANIFEST.json'))['claims']
names = [t for c in claims for t in c['theorems']]
src = 'import Verif\n' + ''.join(f'#print axioms {n}\n' for n in names)
with tempfile.NamedTemporaryFile('w', suffix='.lean', delete=False) as f:
    f.write(src)
out = subprocess.run(['lake', 'env', 'lean', f.name], cwd=f'{ROOT}/lean', capture_output=True, text=True).stdout
os.unlink(f.name)
found = {}
for m in re.finditer(r"'([^']+)' (?:depends on axioms: \[([^\]]*)\]|does not depend on any axioms)", out):
    found[m.group(1)] = sorted(a.strip() for a in (m.group(2) or '').split(',') if a.strip())
missing = [n for n in names if n not in found]
assert not missing, missing
allowed = {'propext', 'Classical.choice', 'Quot.sound'}
assert all(set(v) <= allowed for v in found.values())
with open(f'{ROOT}/AXIOMS.md', 'w') as f:
    f.write('# Axioms of the theorems in MANIFEST.json\n\nOutput of `#print axioms`, written by `tools/axioms.py`.\n\n')
    f.write('| Property | Theorem | Axioms |\n|---|---|---|\n')
    for c in claims:
        for t in c['theorems']:
            f.write(f"| {c['property']} | `{t}` | {', '.join(found[t]) or 'none'} |\n")
print(len(names), 'theorems')
