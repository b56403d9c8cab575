#!/usr/bin/env python3
"""Rewrite the section "Axioms" at the end of DESIGN.md from `#print axioms` of every theorem in MANIFEST.json."""
import json, os, re, subprocess
root = os.path.dirname(os.path.dirname(os.path.abspath(__file__)))
lean = os.path.join(root, 'lean')
names = [t for c in json.load(open(os.path.join(root, 'MANIFEST.json')))['claims'] for t in c['theorems']]
src = ''.join('import Verif.%s\n' % f[:-5] for f in sorted(os.listdir(os.path.join(lean, 'Verif'))) if f.endswith('.lean'))
src += ''.join('#print axioms %s\n' % n for n in names)
open('/tmp/axioms.lean', 'w').write(src)
out = subprocess.run(['lake', 'env', 'lean', '/tmp/axioms.lean'], cwd=lean, capture_output=True, text=True).stdout
groups = {}
for m in re.finditer(r"'(\S+)' (?:depends on axioms: \[([^\]]*)\]|does not depend on any axioms)", out):
    ax = ', '.join('`%s`' % a.strip() for a in (m.group(2) or '').split(',') if a.strip()) or 'none'
    groups.setdefault(ax, []).append(m.group(1).removeprefix('Verif.'))
assert sum(map(len, groups.values())) == len(names), (len(names), out[-2000:])
text = '## Axioms\n\nWritten by `tools/axioms.py` from `#print axioms`; names without the prefix `Verif.`.\n'
for ax in sorted(groups, key=lambda a: (a.count(','), a)):
    text += '\n**%s** (%d theorems): %s.\n' % (ax, len(groups[ax]), ', '.join(groups[ax]))
design = os.path.join(root, 'DESIGN.md')
s = open(design).read()
i = s.find('## Axioms\n')
open(design, 'w').write((s if i < 0 else s[:i]).rstrip() + '\n\n' + text)
print({a: len(g) for a, g in groups.items()})
