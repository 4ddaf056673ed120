#!/usr/bin/env python3
"""Writes AXIOMS.md: for every theorem of the manifest the axioms it depends on, as Lean's `collectAxioms` reports them.
Needs a finished `lake build` in lean/."""
import json, re, subprocess, tempfile, os
root = os.path.dirname(os.path.dirname(os.path.abspath(__file__)))
claims = json.load(open(f'{root}/MANIFEST.json'))['claims']
names = [t for c in claims for t in c['theorems']]
src = 'import Verif\nimport Lean\nopen Lean Elab Command\nrun_cmd do\n  for n in [' + ', '.join('`' + t for t in names) + '''] do
    let ax ← liftCoreM (collectAxioms n)
    logInfo m!"AX {n} {(ax.qsort Name.lt).toList}"
'''
with tempfile.NamedTemporaryFile('w', suffix='.lean', delete=False) as f:
    f.write(src)
out = subprocess.run(['lake', 'env', 'lean', f.name], cwd=f'{root}/lean', capture_output=True, text=True).stdout
os.remove(f.name)
ax = {n: a for n, a in re.findall(r'AX (\S+) \[(.*?)\]', out, re.S)}
assert set(ax) == set(names), set(names) ^ set(ax)
allowed = {'propext', 'Classical.choice', 'Quot.sound'}
groups = {}
for n in names:
    used = [x.strip() for x in ax[n].split(',') if x.strip()]
    assert set(used) <= allowed, (n, used)
    groups.setdefault(tuple(used), []).append(n.replace('Utg.', ''))
with open(f'{root}/AXIOMS.md', 'w') as f:
    f.write('# The axioms each theorem depends on\n\nGenerated by `tools/axioms.py` from `MANIFEST.json` with Lean\'s `collectAxioms`.\n')
    for used, ts in sorted(groups.items(), key=lambda x: len(x[0])):
        f.write(f'\n## {", ".join(used) or "no axioms"} ({len(ts)} theorems)\n\n' + ''.join(f'* {t}\n' for t in ts))
print({', '.join(k) or 'none': len(v) for k, v in groups.items()})
