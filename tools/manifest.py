import json,re,glob,collections
th=collections.defaultdict(list)
for f in sorted(glob.glob('/verif/lean/Verif/Props/*.lean')):
    ns=None
    for line in open(f):
        m=re.match(r'namespace (\S+)',line)
        if m: ns=m.group(1)
        m=re.match(r'(?:protected )?theorem (C(\d\d+)_\S+)',line)
        if m: th['C'+m.group(2)].append(ns+'.'+m.group(1))
notes=json.load(open('/verif/tools/notes.json')) if glob.glob('/verif/tools/notes.json') else {}
claims=[]
for l in open('/verif/properties.jsonl'):
    p=json.loads(l); i=p['id']
    t=th.get(i,[])
    part=(not t) or any('violated' in x or x.endswith('_partial') for x in t)
    c={"property":i,"status":"partial" if part else "proved","theorems":t,"note":notes.get(i,"" if t else "not proved yet")}
    claims.append(c)
json.dump({"claims":claims},open('/verif/MANIFEST.json','w'),indent=1,ensure_ascii=False)
print({c['property']:(c['status'],len(c['theorems'])) for c in claims})
