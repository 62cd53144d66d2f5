#!/usr/bin/env python3
"""Write MANIFEST.json: each property with the theorems named after it (Cnn_*) in lean/Verif/Properties."""
import json, re, glob, os
root = os.path.dirname(os.path.dirname(os.path.abspath(__file__)))
thms = {}
for f in sorted(glob.glob(root + '/lean/Verif/Properties/*.lean')):
    src = open(f).read()
    for m in re.finditer(r'^theorem (C\d\d)_(\w+)', src, re.M):
        thms.setdefault(m.group(1), []).append(f'Dis.{m.group(1)}_{m.group(2)}')
NOTES = json.load(open(root + '/tools/manifest_notes.json'))
claims = []
for line in open(root + '/properties.jsonl'):
    p = json.loads(line)['id']
    n = NOTES.get(p, {})
    ts = thms.get(p, [])
    if not ts and 'status' not in n:
        continue
    status = n.get('status', 'proved' if ts else 'not_applicable')
    claims.append({'property': p, 'status': status, 'theorems': ts, 'note': n.get('note', '')})
json.dump({'claims': claims}, open(root + '/MANIFEST.json', 'w'), indent=1, ensure_ascii=False)
print(len(claims), 'claims', sum(len(c['theorems']) for c in claims), 'theorems',
      'missing:', [json.loads(l)['id'] for l in open(root + '/properties.jsonl') if json.loads(l)['id'] not in thms])

# Audit.lean: `#print axioms` for every property theorem; DESIGN.md appendix: what it printed
imports = [l for l in open(root + '/lean/Verif.lean').read().split('\n') if l.startswith('import Verif.Properties')]
names = [t for c in claims for t in c['theorems']]
audit = '\n'.join(imports) + '''
/-
The axioms every property theorem rests on, as Lean reports them.  Expected: at most `propext`,
`Classical.choice` and `Quot.sound`.  Generated by tools/mkmanifest.py from the names of the theorems.
-/
''' + ''.join(f'#print axioms {t}\n' for t in names)
open(root + '/lean/Verif/Audit.lean', 'w').write(audit)
import subprocess, sys
if '--axioms' in sys.argv:
    out = subprocess.run(['lake', 'env', 'lean', 'Verif/Audit.lean'], cwd=root + '/lean', capture_output=True, text=True, check=True).stdout
    groups = {}
    for m in re.finditer(r"'Dis\.(\w+)' (?:depends on axioms: \[([^\]]*)\]|(does not depend on any axioms))", out):
        groups.setdefault(m.group(2) or 'none', []).append(m.group(1))
    assert sum(map(len, groups.values())) == len(names)
    d = open(root + '/DESIGN.md').read()
    mark = '## Appendix: axioms per theorem'
    d = d[:d.index(mark)] if mark in d else d + '\n'
    d += mark + '\n\nAs printed by `lake env lean Verif/Audit.lean` (generated by tools/mkmanifest.py --axioms).\n'
    for k in sorted(groups, key=len):
        d += f'\n**{k}** ({len(groups[k])}): ' + ', '.join(sorted(groups[k])) + '\n'
    open(root + '/DESIGN.md', 'w').write(d)
