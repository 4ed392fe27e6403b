"""Regenerates MANIFEST.json from tools/status.json and the theorems named Cnn_* in lean/Verif/Properties.
The note of a claim is the text in status.json (if any) followed by the comments of its theorems."""
import json,re,glob,os
root=os.path.dirname(os.path.dirname(os.path.abspath(__file__)))
st=json.load(open(root+'/tools/status.json'))
th={}; doc={}
for f in sorted(glob.glob(root+'/lean/Verif/Properties/*.lean')):
    s=open(f).read()
    for m in re.finditer(r'^theorem (C\d\d\d?_\w*)',s,re.M):
        th.setdefault(m.group(1).split('_')[0],[]).append('Scsi2Nvme.'+m.group(1))
    for m in re.finditer(r'/--((?:(?!-/).)*?)-/\s*theorem (C\d\d\d?_\w*)',s,re.S):
        d=' '.join(m.group(1).split()).replace('**','').replace('`','')
        doc[m.group(2)]=d
claims=[]
for l in open(root+'/properties.jsonl'):
    i=json.loads(l)['id']
    ts=th.get(i,[])
    s=st.get(i,{})
    status=s.get('status') or ('partial' if (not ts or any('partial' in t or 'refuted' in t for t in ts)) else 'proved')
    note=s.get('note','' if ts else 'not yet proved')
    ds=' '.join('[%s] %s'%(t[10:],doc[t[10:]]) for t in ts if t[10:] in doc)
    claims.append(dict(property=i,status=status,theorems=ts,note=(note+' ' if note and ds else note)+ds))
json.dump({'claims':claims},open(root+'/MANIFEST.json','w'),indent=1)
print({k:sum(c['status']==k for c in claims) for k in ('proved','partial','not_applicable')}, 'empty',[c['property'] for c in claims if not c['theorems']])
