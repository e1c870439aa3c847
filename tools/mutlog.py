#!/usr/bin/env python3
"""Appends runner output (mutate.py) to seeded/LOG.jsonl.  usage: mutlog.py out.jsonl [info.json [suffix]]
info: {"tightened": {id: [theorems]}, "note": {id: text}}; edits that do not compile in the model itself are left out."""
import json,sys,os
I=json.load(open(sys.argv[2])) if len(sys.argv)>2 else {}
T=I.get('tightened',{}); N=I.get('note',{})
suf=sys.argv[3] if len(sys.argv)>3 else ''
have=set()
p='/verif/seeded/LOG.jsonl'
if os.path.exists(p):
    for l in open(p): have.add(json.loads(l)['id'])
n=0
with open(p,'a') as f:
    for l in open(sys.argv[1]):
        d=json.loads(l)
        if d['id']+suf in have or d['definition'] in d['failed']: continue
        o={"id":d['id']+suf,"definition":d['definition'],"edit":d['edit'],"claim":", ".join(d['claim'])+": "+d['broken'],
          "theorems_failed":d['failed'] or d['blocked'][:0],"claim_theorems_blocked_by_a_failed_lemma":d['blocked'],"claim_theorems_still_proving":d['surviving_claim_theorems'],
          "tightened":T.get(d['id'],[])}
        if d['id'] in N: o['note']=N[d['id']]
        f.write(json.dumps(o,ensure_ascii=False)+"\n"); n+=1
print(n)
