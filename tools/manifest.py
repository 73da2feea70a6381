#!/usr/bin/env python3
"""Regenerate MANIFEST.json from the theorem names (cNN_...) in lean/Verif/Props and the notes in tools/notes.json."""
import re, json, glob, os
root = os.path.dirname(os.path.dirname(os.path.abspath(__file__)))
notes = json.load(open(root + '/tools/notes.json'))
thms = {}
for f in sorted(glob.glob(root + '/lean/Verif/Props/*.lean')):
    ns = []
    for l in open(f):
        m = re.match(r'namespace (\S+)', l)
        if m: ns.append(m.group(1))
        m = re.match(r'end (\S+)', l)
        if m and ns and ns[-1] == m.group(1): ns.pop()
        m = re.match(r"theorem (c(\d\d)_[A-Za-z0-9_']+)", l)
        if m: thms.setdefault('C' + m.group(2), []).append('.'.join(ns + [m.group(1)]))
claims = []
for l in open(root + '/properties.jsonl'):
    p = json.loads(l)['id']
    if p in thms:
        n = notes.get(p, {})
        claims.append({"property": p, "status": n.get("status", "proved"), "theorems": thms[p], "note": n.get("note", "")})
    elif p in notes and notes[p].get("status") == "not_applicable":
        claims.append({"property": p, "status": "not_applicable", "theorems": [], "note": notes[p]["note"]})
json.dump({"claims": claims}, open(root + '/MANIFEST.json', 'w'), indent=1)
print(len(claims), [c["property"] for c in claims])
