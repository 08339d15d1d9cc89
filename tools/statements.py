#!/usr/bin/env python3
"""Writes STATEMENTS.md: for every claim its English statement and the theorems that settle it, docstring and statement, as they are in the sources."""
import json,re,glob
R='/verif/'
src={f:open(f).read() for f in sorted(glob.glob(R+'lean/Verif/**/*.lean',recursive=True))}
decl=re.compile(r'^(?:@\[[^\]]*\]\s*)?(?:private |protected |noncomputable )*(theorem|lemma|def|abbrev|instance|example|structure|inductive)\b',re.M)
blocks=[]
for f,s in src.items():
    pos=[m.start() for m in decl.finditer(s)]+[len(s)]
    for a,b in zip(pos,pos[1:]): blocks.append((f,a,s[a:b]))
def sig(n):
    for f,a,b in blocks:
        if re.match(r'(?:private |protected |noncomputable )*(theorem|lemma|def) (\S+\.)?%s(?!\w)'%re.escape(n),b):
            doc=''
            m=re.search(r'/--((?:(?!/--).)*?)-/\s*$',src[f][:a],re.S)
            if m: doc=' '.join(m.group(1).split())
            depth=0
            for i,ch in enumerate(b):
                if ch in '([{⟨': depth+=1
                elif ch in ')]}⟩': depth-=1
                elif depth==0 and b.startswith(':=',i):
                    if re.search(r'(let|have) \S+( : [^\n]*)?\s*$',b[:i]): continue
                    return f,doc,b[:i].strip()
                elif depth==0 and re.match(r'\n  \| ',b[i:i+5]): return f,doc,b[:i].strip()
            return f,doc,b.strip()
    return None,None,None
P={}
for l in open(R+'properties.jsonl'):
    d=json.loads(l); P[d['id']]=d
o=['# The claims and their theorems','','Written by `tools/statements.py` from `properties.jsonl`, `MANIFEST.json` and the sources; the definitions the statements use are in `lean/Verif/Spec` and `lean/Verif/Model`.','']
bad=[]
for c in json.load(open(R+'MANIFEST.json'))['claims']:
    p=P[c['property']]
    o+=[f"## {c['property']} – {p['title']} ({c['status']})",'',p['statement'],'']
    if c.get('note'): o+=[f"*{c['note']}*",'']
    for t in c['theorems']:
        f,doc,s=sig(t.split('.')[-1])
        if s is None: bad.append(t); continue
        o+=[f"`{t}` ({f[len(R+'lean/'):]})"+(': '+doc if doc else ''),'','```lean',s,'```','']
open(R+'STATEMENTS.md','w').write('\n'.join(o))
print('missing',bad)
