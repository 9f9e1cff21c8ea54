#!/usr/bin/env python3
"""Regenerate MANIFEST.json from the theorem names in lean/Verif/Props and tools/notes.json."""
import re,json,glob,os
root=os.path.dirname(os.path.dirname(os.path.abspath(__file__)))
notes=json.load(open(root+"/tools/notes.json"))
th={}
for f in sorted(glob.glob(root+"/lean/Verif/Props/*.lean")):
    ns=[]
    for line in open(f):
        m=re.match(r"namespace (\S+)",line)
        if m: ns.append(m.group(1))
        m=re.match(r"end (\S+)",line)
        if m and ns and ns[-1]==m.group(1): ns.pop()
        m=re.match(r"(?:private |protected |nonrec )*theorem (C\d+)_(\S+)",line)
        if m: th.setdefault(m.group(1),[]).append(".".join(ns+[m.group(1)+"_"+m.group(2)]))
claims=[]
for l in open(root+"/properties.jsonl"):
    p=json.loads(l); i=p["id"]
    n=notes.get(i,{})
    if i in th:
        st=n.get("status","partial" if any("_partial" in t for t in th[i]) else "proved")
        claims.append(dict(property=i,status=st,theorems=th[i],note=n.get("note","")))
    elif n.get("status")=="not_applicable":
        claims.append(dict(property=i,status="not_applicable",theorems=[],note=n.get("note","")))
    else: print("missing",i)
json.dump(dict(claims=claims),open(root+"/MANIFEST.json","w"),indent=1)
print(len(claims),"claims",sum(map(len,th.values())),"theorems")
