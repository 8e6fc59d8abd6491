#!/usr/bin/env python3
"""Appends mutation results (written by the scratch harness) to seeded/LOG.jsonl."""
import json, os, sys
log = '/verif/seeded/LOG.jsonl'
os.makedirs('/verif/seeded', exist_ok=True)
seen = set()
if os.path.exists(log):
    for l in open(log):
        if l.strip():
            seen.add(json.loads(l).get('id'))
with open(log, 'a') as f:
    for p in sys.argv[1:]:
        for l in open(p):
            r = json.loads(l)
            if r['id'] in seen:
                continue
            seen.add(r['id'])
            f.write(json.dumps(dict(id=r['id'], definition=r['definition'], edit=r['edit'], claim=r['claim'],
                failed=r['failed'], modules=r['modules'], outcome='caught' if r['rc'] else 'survived',
                tightened=r.get('tightened', []))) + '\n')
