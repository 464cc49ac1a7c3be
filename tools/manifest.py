#!/usr/bin/env python3
"""Collects theorems named Cnn_* (with their namespace) into MANIFEST.json."""
import re,glob,json,os
root=os.path.dirname(os.path.dirname(os.path.abspath(__file__)))
thms={}
for f in sorted(glob.glob(root+'/lean/Verif/**/*.lean',recursive=True)):
    ns=[]
    for line in open(f):
        m=re.match(r'namespace (\S+)',line)
        if m: ns.append(m.group(1)); continue
        m=re.match(r'end (\S+)',line)
        if m and ns and ns[-1]==m.group(1): ns.pop(); continue
        m=re.match(r'theorem (C\d\d)(_\S+)',line)
        if m: thms.setdefault(m.group(1),[]).append('.'.join(ns+[m.group(1)+m.group(2)]))
notes={}
p=root+'/tools/notes.json'
if os.path.exists(p): notes=json.load(open(p))
claims=[]
ids=[json.loads(l)['id'] for l in open(root+'/properties.jsonl') if l.strip()]
for i in ids:
    if i in thms:
        ts=thms[i]
        n=notes.get(i,{})
        st=n.get('status') or ('partial' if any(t.endswith('_partial') for t in ts) else 'proved')
        claims.append({"property":i,"status":st,"theorems":ts,"note":n.get('note','')})
json.dump({"claims":claims},open(root+'/MANIFEST.json','w'),indent=1)
print(len(claims),'claims',sum(len(c['theorems']) for c in claims),'theorems; missing',[i for i in ids if i not in thms])
