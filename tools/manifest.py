import json,re,glob
claims=json.load(open('/verif/tools/claims.json'))
ids=[json.loads(l)['id'] for l in open('/verif/properties.jsonl')]
# collect theorem names
names={}
for f in glob.glob('/verif/lean/Verif/Props/**/*.lean',recursive=True):
    ns=[]
    for line in open(f):
        m=re.match(r'namespace (\S+)',line)
        if m: ns.append(m.group(1))
        m=re.match(r'end (\S+)',line)
        if m and ns and ns[-1]==m.group(1): ns.pop()
        m=re.match(r'(?:private )?theorem (C(\d\d+)_\w+)',line)
        if m: names.setdefault('C'+m.group(2),[]).append('.'.join(ns+[m.group(1)]))
out=[]
for i in ids:
    c=claims.get(i)
    if i in names:
        c=c or {}
        out.append({"property":i,"status":c.get("status","proved"),"theorems":names[i]+c.get("extra",[]),"note":c.get("note","")})
    elif c: out.append({"property":i,"status":c.get("status"),"theorems":[],"note":c.get("note","")})
json.dump({"claims":out},open('/verif/MANIFEST.json','w'),indent=1)
print(sum(1 for o in out if o['theorems']),'/',len(out))
