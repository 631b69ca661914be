#!/usr/bin/env python3
"""Regenerate seeded/LOG.jsonl from the outputs of the mutation runner (scratch, /tmp/mut/b*.out).
usage: seedlog.py out-file...   Tightened theorems are recorded in tools/tightened.json {id: [names]}, notes in the 'comment' key."""
import json,sys,re,os
T={}
p=os.path.join(os.path.dirname(__file__),'tightened.json')
if os.path.exists(p): T=json.load(open(p))
log=os.path.join(os.path.dirname(__file__),'..','seeded','LOG.jsonl')
old={}
if os.path.exists(log):
    for l in open(log):
        if l.strip():
            o=json.loads(l); old[o['id']]=o
for f in sys.argv[1:]:
    for l in open(f):
        m=json.loads(l); r=m['result']
        if 'broken' not in r and not r.get('quick'): continue
        fell=sorted({b for b in r.get('broken',[])}|{x for x in r.get('gone',[])}) or sorted(x.split(' ')[0] for x in r['failed'] if re.match(r'C\d\d_',x))
        t=T.get(m['id'],{})
        o={'id':m['id'],'file':'lean/Verif/'+m['file'],'definition':m['def'],'edit':m['edit'],'claim':m['claim'],'properties':m['props'],
           'failed':fell,'tightened':t.get('theorems',[])}
        if t.get('comment'): o['comment']=t['comment']
        old[m['id']]=o
with open(log,'w') as f:
    for k in sorted(old): f.write(json.dumps(old[k],ensure_ascii=False)+'\n')
print(len(old))
