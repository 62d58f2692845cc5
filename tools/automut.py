#!/usr/bin/env python3
"""Systematic single-token mutations of the model's definitions (step 5), in a scratch copy outside /verif.
A mutant whose own file no longer elaborates is discarded; otherwise the whole project is rebuilt until the first
error (caught) or to the end (survived).  usage: automut.py SEED COUNT [file-regex]"""
import subprocess, re, os, sys, json, shutil, random, signal, time
ROOT='/verif/lean'; BASE='/tmp/am/base'; WORK='/tmp/am/work'; OUT='/tmp/am/results.jsonl'
FILES=[f'Verif/Core/{x}.lean' for x in 'Component Constraint Expr Modules Params Soft'.split()]+\
 [f'Verif/Components/{x}.lean' for x in 'CobbDouglas Damages EffortSharing EmissionTrade Emissions FinTransfer Mitigation Objective SeaLevelRise Welfare'.split()]+\
 [f'Verif/Config/{x}.lean' for x in 'NestedDict ParseConfig Parsers Py Refs Units'.split()]+\
 [f'Verif/Data/{x}.lean' for x in 'DataStore Extrapolate Instantiate Regional Run TimeGrid'.split()]+\
 ['Verif/Sim/Simulation.lean','Verif/Export/Save.lean','Verif/AbstractModel.lean','Verif/Session.lean']
DEF=re.compile(r'^(?:@\[[^\]]*\]\s*)?(?:private |protected |noncomputable )*(def|abbrev|structure|inductive|theorem|lemma|instance|example|namespace|end|open|variable|section|import|set_option|mutual)\b\s*(\S*)')
def mask_comments(s):
    out=list(s); i=0; depth=0
    while i<len(s):
        if s.startswith('/-',i): depth+=1; out[i]=out[i+1]='\x00'; i+=2; continue
        if s.startswith('-/',i) and depth: depth-=1; out[i]=out[i+1]='\x00'; i+=2; continue
        if depth and s[i]!='\n': out[i]='\x00'
        elif not depth and s.startswith('--',i):
            while i<len(s) and s[i]!='\n': out[i]='\x00'; i+=1
            continue
        i+=1
    return ''.join(out)
def regions(s):
    m=mask_comments(s); lines=m.split('\n'); pos=0; cur=None; out=[]
    for l in lines:
        d=DEF.match(l)
        if d:
            cur=(d.group(1),d.group(2))
            # mutate only after := of a def on the same line
            if cur[0] in('def','abbrev') :
                k=l.find(':=')
                if k>=0: out.append((pos+k+2,pos+len(l),cur[1]))
        elif cur and cur[0] in('def','abbrev'): out.append((pos,pos+len(l),cur[1]))
        pos+=len(l)+1
    return m,out
def muts(path,s):
    m,regs=regions(s); res=[]
    ids=sorted(set(re.findall(r'(?<=[ (,\[])\.[a-z][A-Za-z_]+',m)))
    for a,b,name in regs:
        seg=m[a:b]
        def add(i,j,new,kind): res.append((path,name,a+i,a+j,new,kind))
        for x,y in ((' + ',' - '),(' - ',' + '),(' * ',' / '),(' / ',' * '),(' ≤ ',' < '),(' < ',' ≤ '),(' ≥ ',' > '),(' > ',' ≥ '),(' = ',' ≠ '),(' ≠ ',' = '),(' && ',' || '),(' || ',' && '),(' ++ ',' ++ [] ++ ')):
            if x==' ++ ': continue
            for k in re.finditer(re.escape(x),seg): add(k.start(),k.end(),y,'op')
        for k in re.finditer(r'\b(true|false)\b',seg): add(k.start(),k.end(),'false' if k.group(0)=='true' else 'true','bool')
        for k in re.finditer(r'(?<![\w.])(\d+)(\.\d+)?(?![\w.])',seg):
            t=k.group(0); add(k.start(),k.end(),(t+'1') if '.' in t else str(int(t)+1),'num')
        for k in re.finditer(r'"([^"]+)"',seg): add(k.start(1),k.end(1),k.group(1)+'q','string')
        for k in re.finditer(r'\bif (?!let)(?!h :)',seg): add(k.start(),k.end(),'if !decide <| ' if False else 'if ¬ ','ifneg')
        for k in re.finditer(r'(?<=[ (,\[])\.[a-z][A-Za-z_]+',seg):
            for alt in random.sample(ids,min(2,len(ids))):
                if alt!=k.group(0): add(k.start(),k.end(),alt,'ctor')
        for k in re.finditer(r'\b([a-z]) ([a-z])\b',seg):
            if k.group(1)!=k.group(2): add(k.start(),k.end(),k.group(2)+' '+k.group(1),'swap')
        for k in re.finditer(r', [^,\[\]()⟨⟩]+(?=\])',seg): add(k.start(),k.end(),'','droplast')
        for k in re.finditer(r'\.reverse\b|\.filter \([^)]*\)|!(?=[a-z(])',seg): add(k.start(),k.end(),'','drop')
    return res
def sh(c,cwd=None,timeout=3600): return subprocess.run(c,shell=True,cwd=cwd,capture_output=True,text=True,timeout=timeout)
def prepare():
    shutil.rmtree('/tmp/am/base',ignore_errors=True); os.makedirs('/tmp/am',exist_ok=True)
    sh(f'cp -a {ROOT} {BASE}'); shutil.rmtree(WORK,ignore_errors=True); sh(f'cp -a {BASE} {WORK}')
def reset(path):
    shutil.copy2(f'{BASE}/{path}',f'{WORK}/{path}')
    shutil.rmtree(f'{WORK}/.lake/build',ignore_errors=True); sh(f'cp -a {BASE}/.lake/build {WORK}/.lake/build')
def build():
    p=subprocess.Popen('taskset -c 2,3 lake build 2>&1',shell=True,cwd=WORK,stdout=subprocess.PIPE,text=True,preexec_fn=os.setsid)
    err=None
    for l in p.stdout:
        m=re.match(r'error: (Verif\S+\.lean):(\d+):',l)
        if m: err=(m.group(1),int(m.group(2))); break
        if 'error: ' in l and 'build failed' not in l and 'exited' not in l and 'bad import' not in l: err=err or (l.strip()[:100],0)
        if err and err[1]: break
    try: os.killpg(p.pid,signal.SIGKILL)
    except ProcessLookupError: pass
    p.wait()
    return err
def declat(f,line):
    ls=open(f'{WORK}/{f}').read().split('\n')
    for i in range(line-1,-1,-1):
        d=re.match(r'^(?:@\[[^\]]*\]\s*)?(?:private |protected |noncomputable )*(theorem|lemma|example|def|instance|structure)\b\s*(\S*)',ls[i])
        if d: return d.group(1)+' '+d.group(2)
    return '?'
def main():
    seed,count=int(sys.argv[1]),int(sys.argv[2]); rx=sys.argv[3] if len(sys.argv)>3 else ''
    random.seed(seed)
    prepare()
    allm=[]
    for f in FILES:
        if re.search(rx,f): allm+=muts(f,open(f'{BASE}/{f}').read())
    print('candidates',len(allm),flush=True)
    done=set()
    if os.path.exists(OUT):
        for l in open(OUT):
            d=json.loads(l); done.add((d['file'],d['before'],d['after']))
    random.shuffle(allm); n=0
    for path,name,i,j,new,kind in allm:
        if n>=count: break
        s=open(f'{BASE}/{path}').read(); ln=s.count('\n',0,i)
        t=s[:i]+new+s[j:]
        bl=s.split('\n')[ln].strip(); al=t.split('\n')[ln].strip()
        if bl==al or (path,bl,al) in done: continue
        done.add((path,bl,al))
        open(f'{WORK}/{path}','w').write(t)
        t0=time.time()
        r=sh(f'taskset -c 2,3 lake env lean {path}',cwd=WORK)
        if 'error' in r.stdout:
            # is the first error in a def (does not elaborate) or in a theorem of the same file?
            e=re.search(r':(\d+):\d+: error',r.stdout); d=declat(path,int(e.group(1))) if e else '?'
            if d.split()[0] not in('theorem','lemma','example'):
                reset(path); continue
            res='caught'; where=f'{path} {d}'
        else:
            err=build()
            res='survived' if err is None else 'caught'
            where='' if err is None else f'{err[0]} {declat(*err) if err[1] else ""}'
        n+=1
        rec=dict(file=path,definition=name,kind=kind,line=ln+1,before=bl,after=al,result=res,where=where,secs=round(time.time()-t0))
        open(OUT,'a').write(json.dumps(rec,ensure_ascii=False)+'\n')
        print(n,res,path,name,'|',al[:90],'|',where[-60:],rec['secs'],flush=True)
        reset(path)
main()
