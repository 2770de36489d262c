#!/usr/bin/env python3
"""Regenerate MANIFEST.json from the theorem names in lean/Verif/Props and the
status/notes table in scripts/status.json."""
import json,re,os,glob
root=os.path.dirname(os.path.dirname(os.path.abspath(__file__)))
th={}
for f in sorted(glob.glob(root+'/lean/Verif/Props/*.lean')):
    ns=[]
    for l in open(f):
        m=re.match(r'namespace (\S+)',l)
        if m: ns.append(m.group(1)); continue
        m=re.match(r'end (\S+)',l)
        if m and ns and m.group(1)==ns[-1]: ns.pop(); continue
        m=re.match(r'(?:@\[[^\]]*\] )?theorem (C\d\d\w*)',l)
        if m:
            n=m.group(1)
            for p in re.findall(r'C\d\d\d?(?=_)',n):
                th.setdefault(p,[]).append('.'.join(ns+[n]))
st=json.load(open(root+'/scripts/status.json'))
claims=[]
for l in open(root+'/properties.jsonl'):
    p=json.loads(l)['id']
    s=st.get(p)
    if p not in th:
        if s and s[0]=='not_applicable': claims.append({"property":p,"status":s[0],"theorems":[],"note":s[1]})
        else: print('no theorems',p)
        continue
    names=th[p]
    if s is None:
        bad=any(('_partial' in n or 'refuted' in n) for n in names)
        s=['partial' if bad else 'proved','']
    claims.append({"property":p,"status":s[0],"theorems":names,"note":s[1]})
json.dump({"claims":claims},open(root+'/MANIFEST.json','w'),indent=1)
print(len(claims),'claims')
