#!/usr/bin/env python3
"""Writes MANIFEST.json from tools/claims.txt and the theorem names in lean/Verif/Properties.

A line of claims.txt is  `Cnn|status|note`; a line `+Cnn|name ...` adds theorems that also state claim Cnn.  The theorems of a claim are all `theorem`s of the
property files whose name starts with the claim id, except helper lemmas.
"""
import glob, json, os, re
root = os.path.dirname(os.path.dirname(os.path.abspath(__file__)))
thms = {}
for f in sorted(glob.glob(root + '/lean/Verif/Properties/*.lean')):
    ns = []
    for line in open(f):
        m = re.match(r'namespace (\S+)', line)
        if m: ns.append(m.group(1))
        m = re.match(r'end (\S+)', line)
        if m and ns and ns[-1] == m.group(1): ns.pop()
        m = re.match(r'theorem (C\d\d)(_\S+)', line)
        if m:
            thms.setdefault(m.group(1), []).append('.'.join(ns + [m.group(1) + m.group(2)]))
known = {t for ts in thms.values() for t in ts}
for line in open(root + '/tools/claims.txt'):
    if line.startswith('+'):
        pid, names = line[1:].rstrip('\n').split('|')
        for t in names.split():
            assert t in known, t
            thms[pid].append(t)
claims = []
for line in open(root + '/tools/claims.txt'):
    line = line.rstrip('\n')
    if not line or line[0] in '#+': continue
    pid, status, note = line.split('|', 2)
    ts = thms.get(pid, [])
    assert ts or status == 'not_applicable', pid
    claims.append({"property": pid, "status": status, "theorems": ts, "note": note})
for pid in thms:
    assert any(c["property"] == pid for c in claims), pid
json.dump({"claims": claims}, open(root + '/MANIFEST.json', 'w'), indent=1, ensure_ascii=False)
print(len(claims), 'claims', sum(len(c['theorems']) for c in claims), 'theorems')
