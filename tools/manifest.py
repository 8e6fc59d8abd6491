#!/usr/bin/env python3
"""Write MANIFEST.json from the theorem names: every theorem `Cxx_...` of lean/Verif/Props belongs to property Cxx.
Status and note per property come from tools/manifest_notes.json (default: proved)."""
import re, os, json
ROOT = os.path.join(os.path.dirname(os.path.abspath(__file__)), '..')
thms = {}
for d, _, fs in os.walk(f'{ROOT}/lean/Verif/Props'):
    for f in sorted(fs):
        if not f.endswith('.lean'): continue
        ns = []
        for line in open(os.path.join(d, f)):
            m = re.match(r'namespace (\S+)', line)
            if m: ns.append(m.group(1))
            m = re.match(r'end (\S+)', line)
            if m and ns and ns[-1] == m.group(1): ns.pop()
            m = re.match(r'(?:protected |private )?theorem (\S+)', line)
            if m:
                c = re.match(r'(C\d\d+)_', m.group(1))
                if c: thms.setdefault(c.group(1), []).append('.'.join(ns + [m.group(1)]))
notes = json.load(open(f'{ROOT}/tools/manifest_notes.json'))
claims = []
for l in open(f'{ROOT}/properties.jsonl'):
    p = json.loads(l)['id']
    n = notes.get(p, {})
    t = thms.get(p, [])
    status = n.get('status') or ('proved' if t and not any(x.endswith('_partial') for x in t) else 'partial')
    claims.append({'property': p, 'status': status, 'theorems': sorted(t), 'note': n.get('note', '')})
json.dump({'claims': claims}, open(f'{ROOT}/MANIFEST.json', 'w'), indent=1, ensure_ascii=False)
print({c['property']: (c['status'], len(c['theorems'])) for c in claims})
