import json,sys
# usage: addprop.py spec.json  {id,title,statement,quantifier,why,anchors,design:[modelled,how],status,note}
p=json.load(open(sys.argv[1]))
L=[json.loads(l) for l in open('/verif/properties.jsonl')]
L=[x for x in L if x['id']!=p['id']]
L.append({"id":p['id'],"title":p['title'],"statement":p['statement'],"quantifier":p['quantifier'],"why_tests_cant":p['why'],"anchors":p['anchors']})
L.sort(key=lambda x:x['id'])
open('/verif/properties.jsonl','w').write(''.join(json.dumps(x,ensure_ascii=False)+'\n' for x in L))
d=open('/verif/DESIGN.md').read().split('\n')
row=f"| {p['id']} | {p['design'][0]} | {p['design'][1]} |"
d=[l for l in d if not l.startswith(f"| {p['id']} |")]
prev=max(i for i,l in enumerate(d) if l.startswith('| C'))
d.insert(prev+1,row)
open('/verif/DESIGN.md','w').write('\n'.join(d))
n=json.load(open('/verif/tools/notes.json'))
n[p['id']]={"status":p['status'],"note":p['note']}
json.dump(n,open('/verif/tools/notes.json','w'),indent=1,ensure_ascii=False)
