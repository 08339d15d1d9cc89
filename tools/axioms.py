#!/usr/bin/env python3
"""Writes AXIOMS.md: the axioms every theorem of the manifest depends on, as Lean reports them (run after `lake build`)."""
import json, re, subprocess
C=json.load(open('/verif/MANIFEST.json'))['claims']
names=[(c['property'],t) for c in C for t in c['theorems']]
open('/tmp/Ax.lean','w').write('import Verif\n'+''.join('#print axioms %s\n'%t for _,t in names))
out=subprocess.run(['lake','env','lean','/tmp/Ax.lean'],cwd='/verif/lean',capture_output=True,text=True).stdout
out=re.sub(r'\n\s+',' ',out)
ax={}
for l in out.split('\n'):
    m=re.match(r"'(.*)' depends on axioms: \[(.*)\]",l)
    if m: ax[m.group(1)]=m.group(2)
    m=re.match(r"'(.*)' does not depend on any axioms",l)
    if m: ax[m.group(1)]='none'
s='# Axioms\n\nWhat `#print axioms` reports for every theorem in the manifest.\n\n| property | theorem | axioms |\n|---|---|---|\n'
for p,t in names: s+='| %s | `%s` | %s |\n'%(p,t,ax[t])
open('/verif/AXIOMS.md','w').write(s)
from collections import Counter
print(Counter(ax.values()))
