#!/usr/bin/env python3
"""Regenerate seeded/LOG.jsonl from seeded/raw/*.jsonl (results of mutate.py), the dependency table
seeded/raw/deps.txt (theorem -> constants its statement and proof use) and seeded/notes.json (hand notes for
survivors: key "decl|new line stripped")."""
import json,glob,os,re
R='/verif/seeded/raw/'
deps={}
for l in open(R+'deps.txt'):
    n,d=l.rstrip('\n').split('\t'); deps[n.split('.')[-1]]=set(x.split('.')[-1] for x in d.split())
titles={}
for l in open('/verif/properties.jsonl'):
    p=json.loads(l); titles[p['id']]=p['title']
notes=json.load(open('/verif/seeded/notes.json'))
out=[];seen={}
for f in sorted(glob.glob(R+'*.jsonl')):
    for l in open(f):
        m=json.loads(l)
        if m['status']=='invalid': continue
        m['round']=os.path.basename(f)[:-6]
        seen.setdefault((m['file'],m['decl'],m['old'].strip(),m['new'].strip()),[]).append(m)
for (fi,d,o,nw),ms in seen.items():
    for m in ms:
        direct=sorted(set(n for (_,k,n) in m['failed'] if k in('theorem','lemma')))
        C=set(n for n in direct if re.match(r'C\d+_',n))
        for t,ds in deps.items():
            if any(x.split('.')[-1] in ds for x in direct if '.' not in x or x.startswith('_root_')): C.add(t)
        ids=sorted(set(x.split("_")[0] for x in C))
        e=dict(round=m['round'],file=fi,definition=d,edit=f"{o}  ->  {nw}",outcome=m['status'])
        nt=notes.get(d+'|'+nw)
        if m['status']=='killed':
            e['claim']='; '.join(f"{i} {titles.get(i,'')}" for i in ids[:4])+(' …' if len(ids)>4 else '')
            if not C: e['claim']=(nt or {}).get('claim','');e['note']=(nt or {}).get('note','')
            e['theorems_failed']=sorted(C) if len(C)<=12 else sorted(C)[:12]+[f'… {len(C)} in all']
            e['declarations_with_errors']=direct[:8]
            e['theorems_tightened']=(nt or {}).get('tightened',[]) if not C else []
        else:
            e['theorems_failed']=[]
            if nt:
                e['claim']=nt.get('claim','');e['theorems_tightened']=nt.get('tightened',[])
                e['note']=nt.get('note','')
            else:
                e['claim']='TODO';e['theorems_tightened']=[];e['note']='under review'
        out.append(e)
with open('/verif/seeded/LOG.jsonl','w') as h:
    for e in out: h.write(json.dumps(e,ensure_ascii=False)+'\n')
import collections
print(collections.Counter(e['outcome'] for e in out), sum(1 for e in out if e['claim']=='TODO'),'unannotated', sum(1 for e in out if e['claim']==''),'no claim')
