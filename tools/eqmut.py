#!/usr/bin/env python3
"""Semantic strength of the property theorems over the equations (step 5), in a scratch copy outside /verif.
The bridge `*_iff` of Eqs.lean (model constraints <-> equations) is opened, so that an edited equation is what a
program with that bug would give after its lemmas had been repaired; then it is recorded which property theorems no
longer prove.  usage: eqmut.py [ids...]"""
import subprocess, re, os, sys, json, shutil, importlib.util
HOLE="so"+"rry"; PRI='/tmp/eq/pri'; WORK='/tmp/eq/work'; OUT='/tmp/eq/results.jsonl'
sys.path.insert(0,'/verif/tools')
src=open('/verif/tools/mutate.py').read().rsplit('\nmain()',1)[0]; ns={}; exec(src,ns); patch=ns['patch']; sh=ns['sh']
TARGETS=' '.join('Verif.Props.'+x for x in 'Emissions Mitigation Trade Economy Climate Effort Welfare Reporting Averages Initial Optimum Compare'.split())
BR='emissions_rBaseline emissions_rRegionalAbatement emissions_rCumulative emissions_rTemperatureTarget emissions_rCarbonBudget emissions_rGlobalInertia emissions_rRegionalInertia emissions_rGlobalMinLevel emissions_rRegionalMinLevel emissions_iff slr_iff functional_form_expr functional_form_real damage_sat coacch_iff nodamage_iff eval_mMAC eval_mAC mitigation_iff trade_iff pool_iff effort_iff economy_iff welfare_iff objective_iff'.split()
def prepare():
    shutil.rmtree(PRI,ignore_errors=True); sh(f'cp -a /verif/lean {PRI}')
    p=f'{PRI}/Verif/Eqs.lean'; ls=open(p).read().split('\n')
    idx=[i+1 for i,l in enumerate(ls) if re.match(r'theorem ('+'|'.join(BR)+r')\b',l)]
    print(patch(p,idx)); r=sh(f'taskset -c 0,1 lake build {TARGETS} 2>&1',cwd=PRI); print(r.stdout[-200:])
def run(m):
    shutil.rmtree(WORK,ignore_errors=True); sh(f'cp -a {PRI} {WORK}')
    p=f'{WORK}/Verif/Eqs.lean'; s=open(p).read()
    if s.count(m[1])<1: return dict(id=m[0],error='pattern')
    open(p,'w').write(s.replace(m[1],m[2],1))
    failed=[];blocked=[]
    for _ in range(15):
        r=sh(f'taskset -c 0,1 lake build {TARGETS} 2>&1',cwd=WORK); errs={}
        for e in re.finditer(r"^error: (Verif/\S+?\.lean):(\d+):\d+:",r.stdout,re.M): errs.setdefault(e.group(1),[]).append(int(e.group(2)))
        if not errs: break
        prog=False
        for f,l in errs.items():
            n,b=patch(f'{WORK}/{f}',l); failed+=n; blocked+=b; prog|=bool(n)
        if not prog: break
    C=[x for x in failed if re.match(r'C\d\d_',x)]
    return dict(id=m[0],old=m[1],new=m[2],theorems=C,lemmas=[x for x in failed if x not in C and not x.startswith('example@')],blocked=blocked)
def main():
    M=json.load(open('/tmp/eq/muts.json')); only=set(sys.argv[1:])
    done={json.loads(l)['id'] for l in open(OUT)} if os.path.exists(OUT) else set()
    if not os.path.exists(PRI): prepare()
    for m in M:
        if m[0] in done or (only and m[0] not in only): continue
        r=run(m); open(OUT,'a').write(json.dumps(r,ensure_ascii=False)+'\n'); print(r['id'],r.get('theorems'),r.get('lemmas'),r.get('error'),r.get('blocked'),flush=True)
main()
