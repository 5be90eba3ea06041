#!/usr/bin/env python3
"""Regenerate MANIFEST.json: theorem names are collected from lean/Verif/Props, status and notes from
tools/status.json ({"C01": {"status": ..., "note": ...}})."""
import json, re, pathlib
root = pathlib.Path(__file__).resolve().parent.parent
names = {}
for f in sorted((root / 'lean/Verif/Props').glob('*.lean')):
    ns = 'SudoPair'
    for m in re.finditer(r'^theorem (C\d\d)(_\w+)', f.read_text(), re.M):
        names.setdefault(m[1], []).append(f'{ns}.{m[1]}{m[2]}')
status = json.loads((root / 'tools/status.json').read_text())
claims = []
for line in (root / 'properties.jsonl').read_text().splitlines():
    cid = json.loads(line)['id']
    if cid in status and cid in names:
        claims.append({'property': cid, 'status': status[cid]['status'], 'theorems': names[cid],
                       'note': status[cid]['note']})
(root / 'MANIFEST.json').write_text(json.dumps({'claims': claims}, indent=1) + '\n')
print(len(claims), 'claims;', 'missing:', [json.loads(l)['id'] for l in (root / 'properties.jsonl').read_text().splitlines() if json.loads(l)['id'] not in [c['property'] for c in claims]])
