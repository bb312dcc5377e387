#!/usr/bin/env python3
"""Regenerate MANIFEST.json from the theorem names in lean/Verif/Props and tools/notes.json.

A theorem belongs to property CNN when its name starts with CNN_. A property is partial when one of
its theorems ends in _partial or contains _refuted, proved when it has theorems and none is partial.
"""
import json, re, glob, os
root = os.path.dirname(os.path.dirname(os.path.abspath(__file__)))
props = [json.loads(l) for l in open(root + '/properties.jsonl')]
notes = json.load(open(root + '/tools/notes.json'))
thms = {}
for f in sorted(glob.glob(root + '/lean/Verif/Props/*.lean')):
    ns = []
    for line in open(f):
        m = re.match(r'namespace (\S+)', line)
        if m:
            ns.append(m.group(1))
        m = re.match(r'end (\S+)', line)
        if m and ns and ns[-1] == m.group(1):
            ns.pop()
        m = re.match(r'(?:private )?theorem ((C\d\d+)_\S+)', line)
        if m:
            thms.setdefault(m.group(2), []).append('.'.join(ns + [m.group(1)]))
claims = []
for p in props:
    t = thms.get(p['id'], [])
    if not t:
        continue
    partial = any(x.endswith('_partial') or '_refuted' in x for x in t)
    claims.append(dict(property=p['id'], status='partial' if partial else 'proved',
                       theorems=t, note=notes.get(p['id'], '')))
json.dump({'claims': claims}, open(root + '/MANIFEST.json', 'w'), indent=1)
open(root + '/MANIFEST.json', 'a').write('\n')
print(len(claims), 'claims,', sum(c['status'] == 'partial' for c in claims), 'partial,',
      sum(len(c['theorems']) for c in claims), 'theorems; missing:',
      [p['id'] for p in props if p['id'] not in thms])
