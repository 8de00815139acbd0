#!/usr/bin/env python3
"""Regenerates MANIFEST.json: collects theorems named Cnn_* from lean/Verif/Props and notes from tools/notes.json."""
import re,json,glob,os
root=os.path.dirname(os.path.dirname(os.path.abspath(__file__)))
thms={}
for f in sorted(glob.glob(root+'/lean/Verif/Props/*.lean')):
    ns=[]
    for line in open(f):
        m=re.match(r'namespace (\S+)',line)
        if m: ns.append(m.group(1))
        m=re.match(r'end (\S+)',line)
        if m and ns and ns[-1]==m.group(1): ns.pop()
        m=re.match(r'theorem (C\d\d)_(\S+)',line)
        if m: thms.setdefault(m.group(1),[]).append('.'.join(ns+[m.group(1)+'_'+m.group(2)]))
notes=json.load(open(root+'/tools/notes.json'))
claims=[]
for l in open(root+'/properties.jsonl'):
    pid=json.loads(l)['id']
    t=thms.get(pid,[])
    n=notes.get(pid,{})
    status=n.get('status') or ('partial' if (not t or any(x.endswith('_partial') for x in t)) else 'proved')
    claims.append({'property':pid,'status':status,'theorems':t,'note':n.get('note','' if t else 'not yet proved')})
json.dump({'claims':claims},open(root+'/MANIFEST.json','w'),indent=1,ensure_ascii=False)
print({c['property']:(c['status'],len(c['theorems'])) for c in claims})
