#!/usr/bin/env python3
"""Regenerate MANIFEST.json: theorem names are collected from lean/Verif/Props, status and notes
from tools/notes.json."""
import json, re, glob, os
root = os.path.dirname(os.path.dirname(os.path.abspath(__file__)))
props = [json.loads(l) for l in open(os.path.join(root, 'properties.jsonl')) if l.strip()]
notes = json.load(open(os.path.join(root, 'tools', 'notes.json')))
thms = {}
for f in sorted(glob.glob(os.path.join(root, 'lean/Verif/Props/*.lean'))):
    src = open(f).read()
    ns = re.search(r'^namespace (\S+)', src, re.M).group(1)
    for m in re.finditer(r'^theorem (C\d+_?\w*)', src, re.M):
        thms.setdefault(re.match(r'C\d+', m.group(1)).group(0), []).append(ns + '.' + m.group(1))
claims = []
for p in props:
    t = thms.get(p['id'], [])
    n = notes.get(p['id'], {})
    if not t and n.get('status') != 'not_applicable':
        continue
    partial = any('_partial' in x or '_false' in x for x in t)
    claims.append({'property': p['id'], 'status': n.get('status', 'partial' if partial else 'proved'),
                   'theorems': t, 'note': n.get('note', '')})
json.dump({'claims': claims}, open(os.path.join(root, 'MANIFEST.json'), 'w'), indent=1, ensure_ascii=False)
#print({c['property']: c['status'] for c in claims})
#print('missing', [p['id'] for p in props if p['id'] not in {c['property'] for c in claims}])
