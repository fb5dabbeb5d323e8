#!/usr/bin/env python3
"""Translate the tables of decimal constants in /repo into Lean (used once; output is pasted/committed)."""
import re,sys
def dec(t):
    t=t.strip(); neg=t.startswith('-'); t=t.lstrip('-').replace('_','')
    m,e=(t.lower().split('e')+['0'])[:2]; e=int(e)
    if '.' in m:
        a,b=m.split('.'); e-=len(b); m=a+b
    n=int(m)
    if n==0: e=0
    else:
        while n%10==0 and e<0: n//=10; e+=1
    return ('true' if neg else 'false'), n, e
def lit(t):
    s,n,e=dec(t)
    return f"{s} {n} {'('+str(e)+')' if e<0 else e}"
def f64(t):
    s,n,e=dec(t)
    return f"ofDec {s} {n} {'('+str(e)+')' if e<0 else e}"
if __name__=='__main__':
    mode=sys.argv[1]; path=sys.argv[2]; ty=sys.argv[3]
    src=open(path).read()
    if mode=='assoc':
        for m in re.finditer(r'pub const (\w+): %s = %s\(([^)]*)\)'%(ty,ty),src):
            line=src.count('\n',0,m.start())+1
            end=src.count('\n',0,m.end())+1
            parts=[p for p in m.group(2).split(',') if p.strip()]
            print(m.group(1),line,end,[p.strip() for p in parts])
