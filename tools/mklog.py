# Turns raw mutation results (results.jsonl of the scratch runs) into lines of seeded/LOG.jsonl.
# /tmp/deps.txt: "<manifest theorem> <constants it depends on...>", from the Lean environment.
# usage: mklog.py results.jsonl tight.json round [already-logged ids are skipped]
import json,re,sys
deps={}
for l in open('/tmp/deps.txt'):
    a=l.split(); deps[a[0]]=set(a[1:])
tight=json.load(open(sys.argv[2])) if len(sys.argv)>2 else {}
rnd=sys.argv[3] if len(sys.argv)>3 else 1
titles={json.loads(l)['id']:json.loads(l)['title'] for l in open('/verif/properties.jsonl')}
logged={(str(json.loads(l)['round']),json.loads(l)['id']) for l in open('/verif/seeded/LOG.jsonl')}
def short(x): return x.replace('RustBCA.','')
def line(d, rnd):
    fails=[x.split(': ',1)[1].split(' ')[-1] for x in d['result'].get('fails',[])]
    blocked=[]
    for t,ds in deps.items():
        for f in fails:
            if t.endswith('.'+f) or any(u.endswith('.'+f) for u in ds):
                blocked.append(short(t)); break
    t=tight.get(d['id'],{})
    if isinstance(t,list): t={'tightened':t}
    claim=d.get('claim') or t.get('claim')
    if claim:
        ids=set(re.findall(r'C\d+',claim))
        own=[b for b in blocked if any(i+'_' in b for i in ids)]
    else:
        # the properties whose own theorem failed first, else those nearest to the failed lemma
        direct=[f for f in fails if re.match(r'C\d+_',f)]
        near=direct or sorted(blocked,key=lambda b: len(deps['RustBCA.'+b]) if 'RustBCA.'+b in deps else 10**9)[:3]
        ids=list(dict.fromkeys(re.search(r'C\d+',b).group(0) for b in near if re.search(r'C\d+',b)))
        claim='; '.join(i+' '+titles.get(i,'') for i in ids)
        own=near
    e={"round":rnd,"id":d['id'],"definition":d['definition'],"file":"lean/Verif/"+d['file'],"edit":d['edit'],
       "claim_broken":claim,"build":"fails" if d['result'].get('rc') else "passes",
       "theorems_failed":fails,"property_theorems_blocked":own or blocked[:6],
       "theorems_tightened":t.get('tightened',[])}
    if t.get('note'): e['note']=t['note']
    return json.dumps(e,ensure_ascii=False)
for l in open(sys.argv[1]):
    d=json.loads(l)
    if d['result'].get('error') or (str(rnd),d['id']) in logged: continue
    print(line(d,rnd))
