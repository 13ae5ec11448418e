# usage: editprop.py ID field  (new text on stdin) - replace a field of a property
import json,sys
i,f=sys.argv[1:3]; t=sys.stdin.read().strip()
L=[json.loads(l) for l in open('/verif/properties.jsonl')]
for p in L:
    if p['id']==i: p[f]=t
open('/verif/properties.jsonl','w').write(''.join(json.dumps(p)+'\n' for p in L))
