#!/usr/bin/env python3
"""As eqmut.py, for the properties that compare runs and optima.  The bridge of Eqs.lean is an assumption of the scratch
copy; every declaration that no longer proves becomes a hole, and `#print axioms` tells which property theorems rest on
one.  usage: eqmut2.py muts.json [ids...]   (entries: id, old, new, definition, edit, claim, properties)"""
import re, os, sys, json, shutil
HOLE="so"+"rry"; PRI='/tmp/eq/pri2'; WORK='/tmp/eq/work2'; OUT='/tmp/eq/results2.jsonl'
src=open('/verif/tools/mutate.py').read().rsplit('\nmain()',1)[0]; ns={}; exec(src,ns); patch=ns['patch']; sh=ns['sh']
P='Emissions Mitigation Trade Economy Climate Effort Welfare Reporting Averages Initial Optimum Compare Determined Existence ExistenceCI History Witness Milder MilderClimate MilderTrade NoDamage Ranking Presolve Separable SeparableCI Binding Names CostEffective'.split()
TARGETS=' '.join('Verif.Props.'+x for x in P)
BR='emissions_rBaseline emissions_rRegionalAbatement emissions_rCumulative emissions_rTemperatureTarget emissions_rCarbonBudget emissions_rGlobalInertia emissions_rRegionalInertia emissions_rGlobalMinLevel emissions_rRegionalMinLevel emissions_iff slr_iff functional_form_expr functional_form_real damage_sat coacch_iff nodamage_iff eval_mMAC eval_mAC mitigation_iff trade_iff pool_iff effort_iff economy_iff welfare_iff objective_iff'.split()
def thms(root):
    out=[]
    for x in P: out+=re.findall(r'^theorem (C\d\d_\S+)',open(f'{root}/Verif/Props/{x}.lean').read(),re.M)
    return out
def taint(root):
    open(f'{root}/Ax.lean','w').write(''.join(f'import Verif.Props.{x}\n' for x in P)+'\n'.join('#print axioms Mimosa.'+t for t in thms(root))+'\n')
    o=sh('lake env lean Ax.lean 2>&1',cwd=root).stdout
    return [m.group(1) for m in re.finditer(r"'Mimosa\.(\S+)' depends on axioms: \[([^\]]*)\]",o) if HOLE+'Ax' in m.group(2)]
def prepare():
    shutil.rmtree(PRI,ignore_errors=True); sh(f'cp -a /verif/lean {PRI}')
    p=f'{PRI}/Verif/Eqs.lean'; ls=open(p).read().split('\n')
    idx=[i+1 for i,l in enumerate(ls) if re.match(r'theorem ('+'|'.join(BR)+r')\b',l)]
    print(len(patch(p,idx)[0])); s=open(p).read().replace('by '+HOLE,'bridgeAx _')
    s=s.replace('namespace Mimosa','namespace Mimosa\naxiom bridgeAx : ∀ (P : Prop), P\n',1); open(p,'w').write(s)
    r=sh(f'taskset -c 0,1,2 lake build {TARGETS} 2>&1',cwd=PRI); print(r.stdout[-300:]); print('tainted before:',taint(PRI),flush=True)
def run(m):
    shutil.rmtree(WORK,ignore_errors=True); sh(f'cp -a {PRI} {WORK}')
    p=f'{WORK}/Verif/Eqs.lean'; s=open(p).read()
    if m[1] not in s: return dict(id=m[0],harness='pattern not found')
    open(p,'w').write(s.replace(m[1],m[2],1)); failed=[]; blocked=[]; ok=False
    for _ in range(40):
        r=sh(f'taskset -c 0,1,2 lake build {TARGETS} 2>&1',cwd=WORK,timeout=6000); errs={}
        for e in re.finditer(r"^error: (Verif/\S+?\.lean):(\d+):\d+:",r.stdout,re.M): errs.setdefault(e.group(1),[]).append(int(e.group(2)))
        if not errs: ok='successfully' in r.stdout; break
        prog=False
        for f,l in errs.items():
            n,b=patch(f'{WORK}/{f}',l); failed+=n; blocked+=b; prog|=bool(n)
        if not prog: break
    C=[x for x in failed if re.match(r'C\d\d_',x)]; T=[x for x in taint(WORK) if x not in C] if ok else []
    props=m[6]; weak=[c for c in props if not any(x.startswith(c) for x in C+T)]
    rec=dict(id=m[0],definition=m[3]+' (rule expression and its characterisation in Eqs.lean, edited together)',edit=m[4],claim_broken=m[5],properties=props,
      theorems_failed=C,lemmas_failed=sorted({x for x in failed if x not in C and not x.startswith('example@')}),
      theorems_resting_on_a_failed_lemma=T,examples_failed=sum(x.startswith('example@') for x in failed),not_caught=weak,theorems_tightened=[])
    if blocked or not ok: rec['harness']='blocked: '+', '.join(blocked)+('' if ok else ' not stable '+r.stdout[-200:])
    return rec
def main():
    M=json.load(open(sys.argv[1])); only=set(sys.argv[2:])
    done={json.loads(l)['id'] for l in open(OUT)} if os.path.exists(OUT) else set()
    if not os.path.exists(PRI): prepare()
    for m in M:
        if m[0] in done or (only and m[0] not in only): continue
        r=run(m); open(OUT,'a').write(json.dumps(r,ensure_ascii=False)+'\n')
        print(r['id'],'WEAK' if r.get('not_caught') else 'ok',r.get('not_caught'),len(r.get('theorems_failed',[])),len(r.get('theorems_resting_on_a_failed_lemma',[])),r.get('harness','')[:300],flush=True)
main()
