# regenerate MANIFEST.json from theorem names Cnn_* in lean/Verif/Props + status overrides
import re,json,glob,os
th={}
for f in sorted(glob.glob('/verif/lean/Verif/Props/*.lean')):
    s=open(f).read()
    # track namespaces
    ns=[]
    for line in s.split('\n'):
        m=re.match(r'namespace (\S+)',line)
        if m: ns.append(m.group(1))
        m=re.match(r'end (\S+)',line)
        if m and ns and ns[-1]==m.group(1): ns.pop()
        m=re.match(r'(?:private )?theorem (C\d\d+)_(\S+)',line)
        if m: th.setdefault(m.group(1),[]).append('.'.join(ns+[m.group(1)+'_'+m.group(2)]))
props=[json.loads(l) for l in open('/verif/properties.jsonl')]
over=json.load(open('/verif/scripts/status.json')) if os.path.exists('/verif/scripts/status.json') else {}
claims=[]
for p in props:
    i=p['id']
    if i not in th and i not in over: continue
    o=over.get(i,{})
    t=th.get(i,[])
    st=o.get('status') or ('partial' if any(x.endswith('_partial') for x in t) else 'proved')
    c={'property':i,'status':st,'theorems':t,'note':o.get('note','')}
    claims.append(c)
ids={p['id'] for p in props}
for k in th:
    if k not in ids: print('theorem for unknown property',k)
for i in sorted(ids):
    if i not in th: print('no theorem',i,end=' ')
print()
json.dump({'claims':claims},open('/verif/MANIFEST.json','w'),indent=1)
print(len(claims),'claims',sum(len(c['theorems']) for c in claims),'theorems')
