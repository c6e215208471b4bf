import json,sys
# usage: man.py  (reads /verif/tools/claims.py defining CL dict)
exec(open('/verif/tools/claims.py').read())
props=[json.loads(l)['id'] for l in open('/verif/properties.jsonl')]
out=[]
for p in props:
    if p in CL:
        st,th,note=CL[p]
        out.append({"property":p,"status":st,"theorems":["RustBCA."+t for t in th],"note":note})
missing=[p for p in props if p not in CL]
json.dump({"claims":out},open('/verif/MANIFEST.json','w'),indent=1)
print("missing",missing)
