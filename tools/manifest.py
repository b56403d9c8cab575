#!/usr/bin/env python3
"""Write MANIFEST.json from the property theorems found in lean/Verif/*Props.lean.

Usage: tools/manifest.py [--axioms]   (the flag also prints the axioms of every theorem)
"""
import json, os, re, subprocess, sys
root = os.path.dirname(os.path.dirname(os.path.abspath(__file__)))
notes_file = os.path.join(root, 'tools', 'notes.json')
notes = json.load(open(notes_file)) if os.path.exists(notes_file) else {}
claims = {}
mods = []
for f in sorted(os.listdir(os.path.join(root, 'lean', 'Verif'))):
    if not f.endswith('.lean'):
        continue
    mods.append('Verif.' + f[:-5])
    ns = []
    for line in open(os.path.join(root, 'lean', 'Verif', f)):
        m = re.match(r'namespace (\S+)', line)
        if m:
            ns.append(m.group(1))
        m = re.match(r'end (\S+)', line)
        if m and ns and ns[-1] == m.group(1):
            ns.pop()
        m = re.match(r'theorem (C\d\d+)_(\S+)', line)
        if m:
            claims.setdefault(m.group(1), []).append('.'.join(ns + [m.group(1) + '_' + m.group(2)]))
ids = [json.loads(l)['id'] for l in open(os.path.join(root, 'properties.jsonl'))]
out = []
for i in ids:
    th = claims.get(i, [])
    if not th:
        continue
    part = any(t.endswith('_partial') or t.endswith('_fails') for t in th)
    out.append({'property': i, 'status': 'partial' if part else 'proved', 'theorems': th,
                'note': notes.get(i, '')})
json.dump({'claims': out}, open(os.path.join(root, 'MANIFEST.json'), 'w'), indent=1, ensure_ascii=False)
missing = [i for i in ids if i not in claims]
print(len(out), 'claims;', sum(c['status'] == 'proved' for c in out), 'proved;',
      sum(len(c['theorems']) for c in out), 'theorems; missing:', ' '.join(missing))
print('no note:', ' '.join(c['property'] for c in out if not c['note']))
if '--axioms' in sys.argv:
    src = ''.join('import %s\n' % m for m in mods)
    for c in out:
        for t in c['theorems']:
            src += '#print axioms %s\n' % t
    open('/tmp/axioms.lean', 'w').write(src)
    r = subprocess.run(['lake', 'env', 'lean', '/tmp/axioms.lean'], cwd=os.path.join(root, 'lean'),
                       capture_output=True, text=True)
    print(r.stdout, r.stderr)
