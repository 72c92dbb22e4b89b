import re,json,glob,os
thms={}
for f in sorted(glob.glob('/verif/lean/Verif/Props/**/*.lean',recursive=True)):
    s=open(f).read()
    ns='S2P.PS.' if re.search(r'^namespace PS$',s,re.M) else 'S2P.'
    for m in re.finditer(r'^(?:theorem|lemma)\s+((C\d\d\d?)_[A-Za-z0-9_\']+)',s,re.M):
        thms.setdefault(m.group(2),[]).append(ns+m.group(1))
notes=json.load(open('/verif/tools/notes.json')) if os.path.exists('/verif/tools/notes.json') else {}
claims=[]
for l in open('/verif/properties.jsonl'):
    i=json.loads(l)['id']
    if i in thms and i in notes:
        claims.append({"property":i,"status":notes[i][0],"theorems":thms[i],"note":notes[i][1]})
json.dump({"claims":claims},open('/verif/MANIFEST.json','w'),indent=1)
open('/verif/MANIFEST.json','a').write('\n')
print(len(claims),[i for i in thms if i not in notes])
