# usage: addprop.py id title statement quantifier why anchors(;)
import json,sys
a=sys.argv[1:]
p='/verif/properties.jsonl'
ids=[json.loads(l)['id'] for l in open(p)]
assert a[0] not in ids
open(p,'a').write(json.dumps(dict(id=a[0],title=a[1],statement=a[2],quantifier=a[3],why_tests_cant=a[4],anchors=a[5].split(';')))+"\n")
