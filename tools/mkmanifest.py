import json,re,glob,sys
# claims: property -> (status, note); theorems collected automatically by name prefix Cnn_
notes=json.load(open('/verif/tools/notes.json'))
thms={}
for f in sorted(glob.glob('/verif/lean/Verif/**/*.lean',recursive=True)):
    ns=[]
    for line in open(f):
        m=re.match(r'\s*namespace\s+(\S+)',line)
        if m: ns.append(m.group(1))
        m=re.match(r'\s*end\s+(\S+)',line)
        if m and ns and ns[-1]==m.group(1): ns.pop()
        m=re.match(r'\s*(?:@\[[^\]]*\]\s*)?theorem\s+(C(\d\d\d?)_\S+)',line)
        if m: thms.setdefault('C'+m.group(2),[]).append('.'.join(ns+[m.group(1)]))
props=[json.loads(l)['id'] for l in open('/verif/properties.jsonl')]
claims=[]
for p in props:
    n=notes.get(p)
    t=thms.get(p,[])
    if not t and not n: continue
    st=n[0] if n else ('partial' if any('_partial' in x for x in t) else 'proved')
    claims.append(dict(property=p,status=st,theorems=t,note=(n[1] if n else '')))
for p in thms:
    if p not in props: print('theorem without property',p,file=sys.stderr)
json.dump({"claims":claims},open('/verif/MANIFEST.json','w'),indent=1)
print(len(claims),'claims',[p for p in props if p not in [c['property'] for c in claims]])
