#!/usr/bin/env python3
"""Mutation testing of the model, in a scratch copy outside /verif.
usage: mutate.py FILE.json   (list of {definition,file,old,new,claim,tightened?})
Appends one line per mutation to seeded/LOG.jsonl."""
import json,sys,os,re,subprocess,shutil
root=os.path.dirname(os.path.dirname(os.path.abspath(__file__)))
W='/tmp/mut/lean'
src0=os.environ.get('MUT_SRC',root+'/lean')
muts=json.load(open(sys.argv[1]))
subprocess.run(['rsync','-a','--delete',src0+'/',W+'/'],check=True) if shutil.which('rsync') else (shutil.rmtree(W,ignore_errors=True),shutil.copytree(src0,W,symlinks=True))
def enclosing(path,line):
    name='?'
    for i,l in enumerate(open(path).read().split('\n'),1):
        if i>line: break
        m=re.match(r'(?:private |protected |@\[[^\]]*\] )*(theorem|def|example|instance|inductive|abbrev)\s*(\S*)',l)
        if m: name=m.group(2) if m.group(1)!='example' else 'example@%d'%i
    return name
log=open(root+'/seeded/LOG.jsonl','a')
for m in muts:
    p=os.path.join(W,m['file']); src=open(p).read()
    n=src.count(m['old'])
    if n<1 or (n>1 and not m.get('nth') and not m.get('all')): print('BAD MATCH',n,m['definition']); continue
    if m.get('all'): new=src.replace(m['old'],m['new'])
    else:
        k=m.get('nth',1); idx=-1
        for _ in range(k): idx=src.index(m['old'],idx+1)
        new=src[:idx]+m['new']+src[idx+len(m['old']):]
    open(p,'w').write(new)
    r=subprocess.run(['lake','build'],cwd=W,capture_output=True,text=True)
    out=r.stdout+r.stderr
    failed=[]
    for f,l in re.findall(r'error: (Verif/\S+?\.lean):(\d+):',out):
        e=enclosing(os.path.join(W,f),int(l))
        t='%s (%s)'%(e,f)
        if t not in failed: failed.append(t)
    open(p,'w').write(src)
    rec=dict(definition=m['definition'],edit='%s  ==>  %s'%(m['old'].strip(),m['new'].strip()),claim=m['claim'],
        failed=failed,tightened=m.get('tightened',[]))
    if r.returncode==0: rec['outcome']='survived'
    print(json.dumps(rec)); log.write(json.dumps(rec)+'\n'); log.flush()
