#!/usr/bin/env python3
"""Regenerate lean/Verif.lean: import every module below lean/Verif."""
import os
root='/verif/lean'
mods=[]
for d,_,fs in os.walk(root+'/Verif'):
    for f in fs:
        if f.endswith('.lean'):
            mods.append(os.path.relpath(os.path.join(d,f),root)[:-5].replace('/','.'))
open(root+'/Verif.lean','w').write('\n'.join('import '+m for m in sorted(mods))+'\n')
