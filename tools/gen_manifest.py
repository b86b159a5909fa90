#!/usr/bin/env python3
"""Writes MANIFEST.json from the table below and checks that every theorem named exists."""
import json,re,glob,os
root=os.path.dirname(os.path.dirname(os.path.abspath(__file__)))
P="CodeParser.Props."
claims=[]
def c(prop,status,thms,note):
    claims.append(dict(property=prop,status=status,theorems=[P+t for t in thms],note=note))
exec(open(os.path.join(root,'tools','claims.py')).read())
names=set()
for f in glob.glob(root+'/lean/Verif/Props/**/*.lean',recursive=True):
    src=open(f).read()
    ns=re.search(r'^namespace (\S+)',src,re.M).group(1)+'.'
    for m in re.finditer(r'^theorem (\S+)',src,re.M): names.add(ns+m.group(1))
for k in claims:
    for t in k['theorems']:
        if t not in names: print('MISSING',t)
listed={t for k in claims for t in k['theorems']}
for n in sorted(names):
    if re.match(re.escape(P)+r'(\w+\.)?C\d\d',n) and n not in listed: print('unlisted',n)
props=[json.loads(l)['id'] for l in open(root+'/properties.jsonl')]
have={k['property'] for k in claims}
for p in props:
    if p not in have: print('no claim yet for',p)
json.dump({"claims":claims},open(root+'/MANIFEST.json','w'),indent=1)
