import json,re,glob
# property -> (status, note); theorems collected by name prefix from Props/*.lean
notes = json.load(open('/verif/tools/notes.json'))
names={}
for f in sorted(glob.glob('/verif/lean/Verif/Props/*.lean')):
    for m in re.finditer(r'^(?:theorem|lemma)\s+(C\d+_\w+)', open(f).read(), re.M):
        names.setdefault(m.group(1).split("_")[0],[]).append('Chopper.Props.'+m.group(1))
claims=[]
for l in open('/verif/properties.jsonl'):
    i=json.loads(l)['id']
    if i in names:
        st,note=notes.get(i,["proved",""])
        claims.append(dict(property=i,status=st,theorems=names[i],note=note))
    elif i in notes:
        claims.append(dict(property=i,status=notes[i][0],theorems=[],note=notes[i][1]))
json.dump({"claims":claims},open('/verif/MANIFEST.json','w'),indent=1)
print(len(claims),[c['property'] for c in claims])
