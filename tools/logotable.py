#!/usr/bin/env python3
"""Generates lean/Verif/Proof/LogoTable.lean: which codewords a logo can cover (an independent computation; the kernel checks it)."""
import re
S='/verif/lean/Verif/'
s=open(S+'Spec/Standard.lean').read()
EC={};BL={}
i=s.index('def ecTable'); j=s.index('def blockTable'); k=s.index('def ecPerBlock')
for l,t in re.findall(r'\| \.(\w) => \[([\d,]+)\]',s[i:j]): EC[l]=list(map(int,t.split(',')))
for l,t in re.findall(r'\| \.(\w) => \[([\d,]+)\]',s[j:k]): BL[l]=list(map(int,t.split(',')))
def side(v): return 17+4*v
def align(v):
    if v<=1: return []
    n=v//7+2
    step=26 if v==32 else (v*4+n*2+1)//(n*2-2)*2
    return [6]+[side(v)-7-step*(n-2-i) for i in range(n-1)]
def funcs(v):
    n=side(v); A=align(v); F=set()
    for i in range(n):
        for j in range(n):
            f = (i<=7 and j<=7) or (i<=7 and j>=n-8) or (i>=n-8 and j<=7) or i==6 or j==6
            f = f or (i==8 and (j<=8 or j>=n-8)) or (j==8 and (i<=8 or i>=n-8))
            if v>=7: f=f or (i<6 and n-11<=j<n-8) or (j<6 and n-11<=i<n-8)
            if f: F.add((i,j))
    for a in A:
        for b in A:
            if (a,b) in ((6,6),(6,n-7),(n-7,6)): continue
            for x in range(-2,3):
                for y in range(-2,3): F.add((a+x,b+y))
    return F
def order(v,F):
    n=side(v)
    cols=[n-1-2*k for k in range((n-7)//2)]+[5,3,1]
    out=[]
    for k,c in enumerate(cols):
        rows=range(n-1,-1,-1) if k%2==0 else range(n)
        for i in rows:
            for cc in (c,c-1):
                if (i,cc) not in F: out.append((i,cc))
    return out
def blocks(v,l,raw):
    tot=raw//8; nb=BL[l][v-1]; ec=EC[l][v-1]
    short=tot//nb-ec; ns=nb-tot%nb
    idx=[-1]*tot; p=0
    for t in range(short+1):
        for b in range(nb):
            if t<short or b>=ns: idx[p]=b; p+=1
    for t in range(ec):
        for b in range(nb): idx[p]=b;p+=1
    return idx
geo=open(S+'Proof/Count.lean').read(); k=geo.index("def geoTable")
G=re.findall(r'^  \((\d+), (\d+), (\[.*?\]), \d+, (\[.*?\])\)\]?,?$',geo[k:],re.M); assert len(G)==40
out=['''import Verif.Proof.LogoCells
/-!
# Which codewords a logo can cover (generated by tools/logotable.py, checked by the kernel)
-/
namespace QR
open Spec

set_option maxRecDepth 1000000
''']
for v in range(1,41):
    n=side(v); lo=(4*n-4)//10; hi=(6*n+3)//10; m=(n-7)//2; k0=0
    while n-2-2*k0>hi: k0+=1
    k1=k0
    while k1<m and n-1-2*k1>=lo: k1+=1
    F=funcs(v); O=order(v,F)
    p0=sum(1 for k in range(k0) for c in (n-1-2*k,n-2-2*k) for i in range(n) if (i,c) not in F)
    T=[];last=100000
    for p,(i,j) in enumerate(O):
        if lo<=i<=hi and lo<=j<=hi and p//8!=last: last=p//8; T.append(last)
    B=[]
    for l in 'LMQH':
        idx=blocks(v,l,len(O)); B.append([idx[t] for t in T])
    out.append('theorem logo_%d : LogoOk %d := logoOk_of (g := ⟨%s, %s, %s, %s⟩) (k0 := %d) (cnt := %d) (p0 := %d)\n  (cws := %s)\n  %s\n  (by decide +kernel)\n'%(
        v,v,*G[v-1],k0,k1-k0,p0,T,'\n  '.join('(b%s := %s)'%(l,b) for l,b in zip('LMQH',B))))
out.append('''theorem logo_all {v : Nat} (h1 : 1 ≤ v) (h40 : v ≤ 40) : LogoOk v := by
  have h : v ∈ (List.range 40).map (· + 1) := List.mem_map.2 ⟨v - 1, by rw [List.mem_range]; omega, by omega⟩
  revert h
  rw [show (List.range 40).map (· + 1) = %s by decide]
  intro h
  simp only [List.mem_cons, List.not_mem_nil, or_false] at h
  rcases h with %s
  %s

end QR'''%(list(range(1,41)),' | '.join(['rfl']*40),'\n  '.join('· exact logo_%d'%v for v in range(1,41))))
open(S+'Proof/LogoTable.lean','w').write('\n'.join(out)+'\n')
