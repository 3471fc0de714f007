#!/usr/bin/env python3
"""Generates /verif/MANIFEST.json from the theorem names Cnn_* in lean/Verif/Props and the notes below."""
import json, re, glob, os
root = os.path.dirname(os.path.dirname(os.path.abspath(__file__)))
props = [json.loads(l) for l in open(root + '/properties.jsonl')]
thms = {}
for f in sorted(glob.glob(root + '/lean/Verif/Props/**/*.lean', recursive=True)):
    for m in re.finditer(r'^theorem (C(\d+)_\w+)', open(f).read(), re.M):
        thms.setdefault('C' + m.group(2), []).append('Verif.' + m.group(1))
exec(open(root + '/tools/notes.py').read())
claims = []
for p in props:
    i = p['id']; t = thms.get(i, [])
    if i in NA: st = 'not_applicable'
    elif i in FORCE: st = FORCE[i]
    elif not t: st = 'partial'
    elif any('_partial' in x or '_violated' in x for x in t): st = 'partial'
    else: st = 'proved'
    note = NOTES.get(i) or NA.get(i) or ('' if t else 'Planned, not proved yet.')
    claims.append(dict(property=i, status=st, theorems=t, note=note))
json.dump(dict(claims=claims), open(root + '/MANIFEST.json', 'w'), indent=1, ensure_ascii=False)
print(len(claims), 'claims;', sum(c['status']=='proved' for c in claims), 'proved;', [c['property'] for c in claims if not c['theorems']])
