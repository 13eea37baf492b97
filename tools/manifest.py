#!/usr/bin/env python3
"""Write MANIFEST.json from tools/claims.json; check that every named theorem exists."""
import json, os, re, subprocess, sys
ROOT = os.path.dirname(os.path.dirname(os.path.abspath(__file__)))
claims = json.load(open(os.path.join(ROOT, 'tools', 'claims.json')))
names = {}
for d, _, fs in os.walk(os.path.join(ROOT, 'lean', 'Verif', 'Props')):
    for f in fs:
        if f.endswith('.lean'):
            src = open(os.path.join(d, f)).read()
            ns = []
            for m in re.finditer(r'^(namespace|end|theorem) (\S+)', src, re.M):
                if m.group(1) == 'namespace':
                    ns.append(m.group(2))
                elif m.group(1) == 'end':
                    if ns and ns[-1] == m.group(2):
                        ns.pop()
                else:
                    names[m.group(2)] = '.'.join(ns + [m.group(2)])
out, used = [], set()
for c in claims:
    pre = c['property'].lower() + '_'
    auto = [n for n in names if n.startswith(pre)] + c.get('extra', [])
    for n in auto:
        assert n in names, n
        used.add(n)
    status = c['status']
    out.append({'property': c['property'], 'status': status,
                'theorems': [names[n] for n in auto], 'note': c['note']})
json.dump({'claims': out}, open(os.path.join(ROOT, 'MANIFEST.json'), 'w'), indent=1, ensure_ascii=False)
props = [json.loads(l)['id'] for l in open(os.path.join(ROOT, 'properties.jsonl'))]
missing = [p for p in props if p not in [c['property'] for c in claims]]
print('claims', len(out), 'theorems', sum(len(c['theorems']) for c in out), 'without claim:', missing)
unl = [n for n in names if re.match(r'c\d\d', n) and n not in used]
print('unlisted', unl)
open('/tmp/axioms.lean', 'w').write('import Verif\n' + '\n'.join('#print axioms ' + t for c in out for t in c['theorems']) + '\n')
