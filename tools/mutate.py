#!/usr/bin/env python3
"""Runs the wrong programs of mutants.py in a scratch copy and appends the outcome to seeded/LOG.jsonl.
Needs /tmp/w/mutbase, a copy of /verif/lean with its build output, and /tmp/w/deps.txt (see deps.py)."""
import json, os, re, subprocess, sys, time, signal
sys.path.insert(0,'/verif/tools')
from mutants import M
BASE='/tmp/w/mutbase'; W=os.environ.get('MUTDIR','/tmp/w/mut')
LOG='/verif/seeded/LOG.jsonl'
deps={}
for l in open('/tmp/w/deps.txt'):
    if l.startswith('DEP '):
        p=l.split(); deps[p[1]]=set(p[2:])
man={t:c['property'] for c in json.load(open('/verif/MANIFEST.json'))['claims'] for t in c['theorems']}
def modules(props):
    """Modules with the theorems of these properties: only they are built."""
    r=set()
    for c in json.load(open('/verif/MANIFEST.json'))['claims']:
        if c['property'] not in props: continue
        for t in c['theorems']:
            n=t.split('.')[-1]
            g=subprocess.run(['grep','-rlE',r'^(theorem|def) (\S+\.)?%s\b'%re.escape(n),BASE+'/Verif'],capture_output=True,text=True).stdout.split()
            r|={x[len(BASE)+1:-5].replace('/','.') for x in g}
    return sorted(r) or ['Verif']
decl=re.compile(r'^(?:@\[[^\]]*\]\s*)?(?:(?:private|protected|noncomputable|unsafe|partial|seal \S+ in|set_option \S+ \S+ in|open .* in|omit .* in)\s+)*(theorem|lemma|def|abbrev|instance|example|structure|inductive)\b\s*([^\s:({\[]*)')
def enclosing(path,line):
    """Name of the declaration around the line, and the line it starts at."""
    ls=open(path).read().split('\n'); ns=[]; name=None; st=None
    for i,l in enumerate(ls[:line]):
        m=re.match(r'^namespace\s+(\S+)',l)
        if m: ns.append(m.group(1))
        m=re.match(r'^end\s+(\S+)',l)
        if m and ns: ns.pop()
        m=decl.match(l)
        if m:
            st=i
            name='.'.join(ns+[m.group(2)]) if m.group(2) else '(%s at %s:%d)'%(m.group(1),os.path.basename(path),i+1)
    return (name or '(%s:%d)'%(os.path.basename(path),line)),st
HOLE='so'+'rry'
def skip_proof(path,st):
    """In the scratch copy: drop the proof of the declaration that starts at this line, so that what rests on it is still tried."""
    if st is None or '/verif/' in path: return False
    ls=open(path).read().split('\n'); en=st+1
    while en<len(ls) and (ls[en]=='' or ls[en][0] in ' \t|'): en+=1
    txt='\n'.join(ls[st:en]); depth=0; cut=None
    if re.match(r'^(def|abbrev|structure|inductive|instance)',ls[st]): return False
    for i,ch in enumerate(txt):
        if ch in '([{⟨': depth+=1
        elif ch in ')]}⟩': depth-=1
        elif depth==0 and txt.startswith(':=',i): cut=i; break
        elif depth==0 and ch=='|' and re.search(r'\n\s*$',txt[:i]): cut=i; break
    if cut is None: return False
    open(path,'w').write('\n'.join(ls[:st]+[txt[:cut]+':= '+HOLE,'']+ls[en:]))
    return True
done=set()
if os.path.exists(LOG):
    for l in open(LOG):
        d=json.loads(l); done.add((d['definition'],d['edit']))
sel=sys.argv[1:]
for m in M:
    f,d,old,new,edit,claim,props=m
    if (d,edit) in done: continue
    if sel and d not in sel and f not in sel: continue
    while os.path.exists('/tmp/w/pause'): time.sleep(10)
    subprocess.run(['rm','-rf',W],check=True); subprocess.run(['cp','-a',BASE,W],check=True)
    p='%s/Verif/Model/%s.lean'%(W,f); s=open(p).read(); assert s.count(old)==1,(d,old)
    open(p,'w').write(s.replace(old,new))
    t=time.time(); direct=[]; to=False; rounds=0; outs=''
    while True:
        rounds+=1
        pr=subprocess.Popen(['nice','lake','build']+modules(props),cwd=W,stdout=subprocess.PIPE,stderr=subprocess.STDOUT,text=True,start_new_session=True)
        try: out,_=pr.communicate(timeout=1500)
        except subprocess.TimeoutExpired:
            os.killpg(pr.pid,signal.SIGKILL); out,_=pr.communicate(); to=True
        outs+=out[-8000:]
        bad={}
        for mm in re.finditer(r'error: (Verif/\S+\.lean):(\d+):',out):
            fp='%s/%s'%(W,mm.group(1)); n,st=enclosing(fp,int(mm.group(2)))
            if n not in direct: direct.append(n)
            bad.setdefault(fp,set()).add(st)
        ds=set(direct)
        failed=sorted({t for t in man if t in ds or deps.get(t,set())&ds})
        fprops=sorted({man[t] for t in failed})
        missing=[c for c in props if c not in fprops]
        # go on past the failed lemmas (in the scratch copy only) until the claim's own theorems have been tried
        if to or not bad or not missing or rounds>=10: break
        ok=False
        for fp,sts in bad.items():
            for st in sorted(sts,reverse=True): ok|=skip_proof(fp,st)
        if not ok: break
    fp=fprops; out=outs
    e={'definition':'QR %s (Model/%s.lean)'%(d,f),'edit':edit,'claim':claim,'claim_properties':props,
       'errors_in':direct,'theorems_failed':failed,'theorems_tightened':[]}
    e['definition']=d; e['file']='Model/%s.lean'%f; e['old']=old; e['new']=new
    e['rounds']=rounds
    if to: e['note']='build stopped after 25 minutes'
    if missing: e['not_yet_failed']=missing
    open('/tmp/w/muts.out','a').write(out[-20000:]+'\n=====\n')
    open(LOG,'a').write(json.dumps(e,ensure_ascii=False)+'\n')
    print('%4.0fs %-30s %-40s direct=%d props=%s%s'%(time.time()-t,d,edit[:40],len(direct),','.join(fp),(' MISSING '+','.join(missing)) if missing else ''),flush=True)
