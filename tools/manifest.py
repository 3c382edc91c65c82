#!/usr/bin/env python3
"""Regenerates MANIFEST.json: theorems named Cnn_* in lean/Verif/Props belong to property Cnn."""
import json, re, pathlib
root = pathlib.Path(__file__).resolve().parent.parent
notes = json.loads((root / 'tools' / 'notes.json').read_text())
thms = {}
for f in sorted((root / 'lean' / 'Verif').rglob('*.lean')):
    ns = []
    for line in f.read_text().splitlines():
        m = re.match(r'namespace (\S+)', line)
        if m: ns.append(m.group(1)); continue
        m = re.match(r'end (\S+)', line)
        if m and ns and ns[-1] == m.group(1): ns.pop(); continue
        m = re.match(r'(?:noncomputable )?theorem (C(\d\d)_\S+)', line)
        if m:
            thms.setdefault('C' + m.group(2), []).append('.'.join(ns + [m.group(1)]))
claims = []
for line in (root / 'properties.jsonl').read_text().splitlines():
    if not line.strip(): continue
    p = json.loads(line)['id']
    n = notes.get(p, {})
    ts = thms.get(p, [])
    st = n.get('status', 'proved' if ts else 'partial')
    claims.append({'property': p, 'status': st, 'theorems': ts, 'note': n.get('note', '')})
(root / 'MANIFEST.json').write_text(json.dumps({'claims': claims}, indent=1) + '\n')
for c in claims:
    if not c['theorems']: print('no theorem:', c['property'])
