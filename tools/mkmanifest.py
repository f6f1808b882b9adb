#!/usr/bin/env python3
"""Regenerate MANIFEST.json and lean/Verif.lean: theorem names are collected from lean/Verif/Props."""
import re, json, glob, os, collections
root = os.path.join(os.path.dirname(__file__), '..')
thms = collections.OrderedDict()
for f in sorted(glob.glob(root + '/lean/Verif/Props/*.lean')):
    t = open(f).read()
    ns = re.search(r'^namespace (\S+)', t, re.M).group(1)  # one namespace per file of properties
    for m in re.finditer(r'^theorem (C(\d\d)_\w+)', t, re.M):
        thms.setdefault('C' + m.group(2), []).append(ns + '.' + m.group(1))
notes = json.load(open(root + '/tools/notes.json'))
claims = []
for l in open(root + '/properties.jsonl'):
    p = json.loads(l)['id']
    n = notes.get(p, {})
    ts = thms.get(p, [])
    status = n.get('status') or ('proved' if ts else 'not_applicable')
    if not ts and status != 'not_applicable':
        continue
    if not ts and 'note' not in n:
        continue
    claims.append({'property': p, 'status': status, 'theorems': ts, 'note': n.get('note', '')})
json.dump({'claims': claims}, open(root + '/MANIFEST.json', 'w'), indent=1, ensure_ascii=False)
mods = []
for d, _, fs in os.walk(root + '/lean/Verif'):
    for f in fs:
        if f.endswith('.lean'):
            mods.append(os.path.relpath(os.path.join(d, f), root + '/lean')[:-5].replace('/', '.'))
open(root + '/lean/Verif.lean', 'w').write(''.join('import %s\n' % m for m in sorted(mods)))
print(len(claims), 'claims,', sum(len(c['theorems']) for c in claims), 'theorems,', len(mods), 'modules')
