#!/usr/bin/env python3
"""Append the results of automut.py (AM_OUT) to seeded/LOG.jsonl, one line per edit that compiles; edits already logged are skipped.
Survivors need a verdict in VERDICT (why the edit changes no claim), otherwise they are printed and not logged."""
import functools,json,os,re
here=os.path.dirname(os.path.dirname(os.path.abspath(__file__)))
OUT=os.environ.get('AM_OUT','/tmp/am/out.jsonl'); LOG=here+'/seeded/LOG.jsonl'
VERDICT={
 ('weightOf','GoFloat.zero','GoFloat.one'):'none: default value of a read that is always inside the list',
 ('valueOf','GoFloat.zero','GoFloat.one'):'none: default value of a read that is always inside the list',
 ('deltaAt','GoFloat.zero','GoFloat.one'):'none: default value of a read that is always inside the list (active nodes have a slot for the input)',
 ('valueAt','GoFloat.zero','GoFloat.one'):'none: default value of a read that is always inside the list',
 ('emptyBase','0','1'):'none: fields that Update always sets before they are read',
 ('emptyBase','GoFloat.zero','GoFloat.one'):'none: mirrorBias, which Update always sets before it is read',
 ('recorder','0','1'):'none: the recorder serves to list the training calls, its predictions are not used',
 ('newArrays','if cfg.UseAdam then pure (weights, bias, adamAvgMom, adamAvgVel) else pure (weights, bias, nilSlice, nilSlice)','if cfg.UseAdam then pure (weights, bias, nilSlice, nilSlice) else pure (weights, bias, adamAvgMom, adamAvgVel)'):'survived before C100, which was added for it (see the hand-written entry for newArrays)',
 ('likelihood','0','1'):'none: value for arguments of the wrong shape, never reached',
 ('labelMean','0','1'):'none: value for arguments of the wrong shape, never reached',
 ('objective','0','1'):'none: value for arguments of the wrong shape, never reached',
 ('topMax','0','1'):'none: value for arguments of the wrong shape, never reached',
 ('fed','0','1'):'none: default value of a read that is always inside the list',
 ('scanLoop','false','true'):'none: value of the loop without fuel, which `scan` never reaches',
 ('weight','0','1'):'none: more fuel than needed',
 ('binSize',' = ',' ≠ '):'none: the edit is in a comment',
 ('newArrays',' * ',' + '):'none: the sign of both numbers has been checked before',
 ('weight','1','2'):'none: more fuel than needed',
}
@functools.lru_cache(None)
def deps(m):
    """modules of the project that a module imports, directly or not"""
    p=os.path.join(here,'lean',m); out=set()
    if os.path.exists(p):
        for x in re.findall(r'^import (Verif\.\S+)',open(p).read(),re.M):
            q=x.replace('.','/')+'.lean'; out|={q}|deps(q)
    return frozenset(out)
have={json.loads(l)['edit'] for l in open(LOG)}
with open(LOG,'a') as f:
    for l in open(OUT):
        r=json.loads(l)
        if r['status']=='invalid': continue
        if r['where']=='?': continue   # the build stopped without an error of Lean: no result
        edit='%s (automatic edit %d of this kind): `%s` becomes `%s`'%(r['file'],r['n'],r['old'].strip(),r['new'].strip())
        edit+=', line %d'%r['line']
        if edit in have: continue
        if r['status']=='SURVIVED':
            v=VERDICT.get((r['definition'],r['old'],r['new']))
            if v is None: print('no verdict:',r); continue
            claim=v; failed=[]
        else:
            w=r['where'][r['where'].index('Verif/'):]
            if 'Verif/'+r['file'] not in deps(w): print('not due to the edit:',r); continue
            claim='behaviour of '+r['definition']; failed=[r['by'] or r['where']]
        have.add(edit)
        f.write(json.dumps(dict(definition=r['definition'],edit=edit,claim_broken=claim,theorems_failed=failed,theorems_tightened=[]),ensure_ascii=False)+'\n')
