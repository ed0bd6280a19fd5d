#!/usr/bin/env python3
"""Regenerates MANIFEST.json from the table below, checking that each theorem name exists in a Props file."""
import json,re,glob,sys
names=set()
for f in glob.glob('/verif/lean/Verif/**/*.lean',recursive=True):
    names|=set(re.findall(r'^(?:theorem|lemma) (\S+)',open(f).read(),re.M))
T=json.load(open('/verif/claims_src.json'))
claims=[]
for pid,(st,th,note) in T.items():
    for t in th:
        if t not in names: print('missing',t)
    claims.append(dict(property=pid,status=st,theorems=['Fossil.'+t for t in th],note=note))
used={t for _,(s,th,n) in T.items() for t in th}
for t in sorted(names):
    if re.match(r'C\d\d_',t) and t not in used: print('unused',t)
json.dump({"claims":claims},open('/verif/MANIFEST.json','w'),indent=1)
