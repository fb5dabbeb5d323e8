#!/usr/bin/env python3
"""Write /verif/MANIFEST.json from the table below (checked against properties.jsonl and the Lean sources)."""
import json,re,glob
T={}
def p(pid,status,theorems,note): T[pid]=dict(property=pid,status=status,theorems=theorems,note=note)
exec(open('/verif/tools/manifest_data.py').read())
props=[json.loads(l)['id'] for l in open('/verif/properties.jsonl')]
src=''.join(open(f).read() for f in glob.glob('/verif/lean/Verif/**/*.lean',recursive=True))
names=set(re.findall(r'theorem\s+(\S+)',src))
out=[]
for i in props:
    if i in T:
        if T[i]['theorems'] is None:
            T[i]['theorems']=['Verif.'+n for n in re.findall(r'^theorem\s+('+i+r'_\S+)',src,re.M)]
        for t in T[i]['theorems']:
            assert t.split('.')[-1] in names or t.replace('Verif.','') in names,(i,t)
        out.append(T[i])
    else: print('missing',i)
json.dump({"claims":out},open('/verif/MANIFEST.json','w'),indent=1)
