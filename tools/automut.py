#!/usr/bin/env python3
"""Automatic mutations of the model.  usage: automut.py list|run [file-regex] [max-per-definition]
Works in a built copy of lean/ (AM_LEAN, default /tmp/am/lean).  Every mutation is one small textual edit in the body of a
definition of Verif/Model, Verif/Go or Verif/Spec (a wrong claim must not be provable).  The project is rebuilt until the first error; an edit without any error survives and
has to be looked at (it is equivalent, or a theorem is too weak).  Results go to AM_OUT (default /tmp/am/out.jsonl)."""
import json,os,re,subprocess,sys,random,signal
L=os.environ.get('AM_LEAN','/tmp/am/lean'); OUT=os.environ.get('AM_OUT','/tmp/am/out.jsonl')
OPS=[(r' < ',' ≤ '),(r' ≤ ',' < '),(r' > ',' ≥ '),(r' ≥ ',' > '),(r' = ',' ≠ '),(r' ≠ ',' = '),(r' == ',' != '),(r' != ',' == '),
 (r' \+ 1\b',''),(r' - 1\b',''),(r' \+ ',' - '),(r' - ',' + '),(r' \* ',' + '),(r'GoFloat\.add','GoFloat.sub'),(r'GoFloat\.sub','GoFloat.add'),
 (r'GoFloat\.mul','GoFloat.add'),(r'GoFloat\.div','GoFloat.mul'),(r'GoFloat\.lt','GoFloat.le'),(r'GoFloat\.le\b','GoFloat.lt'),(r'GoFloat\.eq','GoFloat.lt'),
 (r'\btrue\b','false'),(r'\bfalse\b','true'),(r'GoFloat\.zero','GoFloat.one'),(r'GoFloat\.one','GoFloat.zero'),(r'&&','||'),(r'\|\|','&&'),
 (r'GoFloat\.(exp|sqrt|ln) ','id '),(r'(?<![\w.\'])0(?![\w.#])','1'),(r'(?<![\w.\'#])1(?![\w.#/])','2'),(r'(?<![\w.\'])1(?![\w.#/])','0'),(r'<<<','>>>'),(r' %+ ',' / '),
 (r'if (\S.*?) then (\S.*?) else (\S[^\n]*)',r'if \1 then \3 else \2'),(r'if (.*?) then',r'if True then'),(r'if (.*?) then',r'if False then'),
 (r'(\w+) := ([^,{}]+), (?=\w+ :=)',''),(r', (\w+) := ([^,{}]+)(?= \})',''),(r'\.tail\b',''),(r'List\.range (\S+)',r'(List.range \1).tail'),(r'\.reverse\b',''),
 (r'reset','id'),(r' ∧ ',' ∨ '),(r' ∨ ',' ∧ '),(r'∀ ','∃ '),(r' ∈ ',' ∉ '),(r' ↔ ',' → ')]
def defs(src):
    """(name, start of body, end) of every definition"""
    for m in re.finditer(r'^(?:@\[.*\] *\n?)?(?:noncomputable )?(?:def|structure|inductive|abbrev) (\S+)(.*?)(?=\n\n|\Z)',src,re.M|re.S):
        name=m[1]; txt=m[0]
        k=re.search(r':=|\n *\||\bwhere\b',txt)
        if not k: continue
        yield name,m.start()+k.start()+2,m.end()
def mutants(path):
    src=open(path).read(); seen=set()
    for name,a,b in defs(src):
        body=src[a:b]
        for pat,rep in OPS:
            for m in re.finditer(pat,body):
                new=body[:m.start()]+m.expand(rep)+body[m.end():]
                ls=body.rfind('\n',0,m.start())+1
                if '--' in body[ls:m.start()] : continue
                if new==body or (name,new) in seen: continue
                seen.add((name,new))
                ln=src[:a+m.start()].count('\n')+1
                yield name,ln,m[0],m.expand(rep),src[:a]+new+src[b:]
        # drop a statement
        for m in re.finditer(r'\n {2,}(?!let|if|return|match|\||else|then|pure|--|fun|for)(\w[^\n]*)(?=\n {2,})',body):
            new=body[:m.start()]+body[m.end():]
            if (name,new) in seen: continue
            seen.add((name,new))
            ln=src[:a+m.start()+1].count('\n')+1
            yield name,ln,m[1],'(deleted)',src[:a]+new+src[b:]
def files(rx):
    out=[]
    for d in ('Model','Go','Spec'):
        for f in sorted(os.listdir(L+'/Verif/'+d)):
            p='%s/%s'%(d,f)
            if f.endswith('.lean') and re.search(rx,p): out.append(p)
    return out
def build():
    p=subprocess.Popen(['nice','-n','15','lake','build','Verif'],cwd=L,stdout=subprocess.PIPE,stderr=subprocess.STDOUT,text=True,start_new_session=True)
    err=None
    for line in p.stdout:
        m=re.match(r'error: (\S+\.lean):(\d+):\d+: (.*)',line)
        if m and err is None:
            err=(m[1],int(m[2]),m[3][:80])
            os.killpg(p.pid,signal.SIGKILL); break
    p.wait()
    if err is None and p.returncode!=0: err=('?',0,'build failed')
    return err
def nearest(f,ln):
    ls=open(os.path.join(L,f)).read().split('\n')
    for i in range(min(ln,len(ls))-1,-1,-1):
        m=re.match(r'(?:private |protected )?(theorem|lemma|example|def|instance)\s*(\S*)',ls[i])
        if m: return (m[2] if m[1]!='example' else 'example:%d'%ln)
    return ''
if __name__=='__main__':
    cmd=sys.argv[1]; rx=sys.argv[2] if len(sys.argv)>2 else '.'; cap=int(sys.argv[3]) if len(sys.argv)>3 else 10**6
    done=set()
    if os.path.exists(OUT):
        for l in open(OUT):
            r=json.loads(l)
            if r['where']=='?': continue   # stopped from outside: try again
            done.add((r['file'],r['line'],r['old'],r['new'],r['n']))
    rnd=random.Random(1)
    for f in files(rx):
        path=L+'/Verif/'+f; orig=open(path).read()
        by={}; cnt={}
        for m in mutants(path):
            key=(m[1],m[2],m[3]); cnt[key]=cnt.get(key,0)+1
            by.setdefault(m[0],[]).append(m+(cnt[key],))
        total=0
        for name,ms in by.items():
            rnd.shuffle(ms); ok=0
            for (n_,ln,old,new,src,k) in ms:
                if ok>=cap: break
                if cmd=='list': total+=1; ok+=1; print(f,name,ln,repr(old),'->',repr(new)); continue
                if (f,ln,old,new,k) in done: ok+=1; continue
                open(path,'w').write(src)
                try: err=build()
                finally: open(path,'w').write(orig)
                if err and err[0].endswith('Verif/'+f): status='invalid'
                elif err and err[0]=='?': status='unknown'
                elif err: status='killed'; ok+=1
                else: status='SURVIVED'; ok+=1
                r=dict(file=f,definition=name,line=ln,old=old,new=new,n=k,status=status,by=(nearest(err[0],err[1]) if err and err[1] else ''),where=(err[0] if err else ''),msg=(err[2] if err else ''))
                open(OUT,'a').write(json.dumps(r,ensure_ascii=False)+'\n')
        if cmd=='list': print('##',f,total)
