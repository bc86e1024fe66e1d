"""Mutation driver: python3 tools/mut.py muts.json -- applies each edit in a scratch copy of the Lean project, builds it, and
appends one line per attempt to seeded/LOG.jsonl.  Each entry: {file, old, new, def, edit, claim, tightened?}."""
import json,subprocess,sys,re,os,shutil,time,threading
GRACE=int(os.environ.get('MUT_GRACE','40'))  # after the first failure the build goes on for this many seconds
S='/tmp/scratch/lean'; V='/verif/lean'
def sync():
    subprocess.run(['rsync','-a','--delete','--exclude','.lake',V+'/',S+'/'],check=True) if shutil.which('rsync') else \
    subprocess.run(f'cd {V} && find Verif Verif.lean -name "*.lean" | while read f; do mkdir -p {S}/$(dirname $f); cmp -s $f {S}/$f || cp $f {S}/$f; done; cd {S} && find Verif -name "*.lean" | while read f; do test -f {V}/$f || rm $f; done',shell=True,check=True)
def thm_at(path,line):
    L=open(path).read().split('\n')
    for i in range(min(line,len(L))-1,-1,-1):
        m=re.match(r'\s*(?:@\[[^\]]*\]\s*)?(?:private |protected |noncomputable )*(theorem|lemma|example|instance|def|abbrev)\s*([^\s:({\[]*)',L[i])
        if m: return (m.group(2) or m.group(1))
    return '?'
muts=json.load(open(sys.argv[1])); dry='--dry' in sys.argv
for m in muts:
    sync()
    p=os.path.join(S,m['file']); s=open(p).read()
    n=s.count(m['old'])
    if n!=m.get('count',1):
        print('BAD MATCH',n,m['def'],m['edit']); continue
    open(p,'w').write(s.replace(m['old'],m['new']))
    env=dict(os.environ,LEAN_NUM_THREADS=os.environ.get('MUT_THREADS','2'))
    r=subprocess.Popen(['lake','build'],cwd=S,stdout=subprocess.PIPE,stderr=subprocess.STDOUT,text=True,env=env,start_new_session=True)
    buf=[]; first=[None]
    def rd():
        for l in r.stdout:
            buf.append(l)
            if first[0] is None and re.search(r'error: Verif/',l): first[0]=time.time()
    th=threading.Thread(target=rd,daemon=True); th.start(); t0=time.time()
    while th.is_alive():
        th.join(1)
        if (first[0] and time.time()-first[0]>GRACE) or time.time()-t0>3000:
            os.killpg(r.pid,9); break
    th.join(5); r.wait()
    out=''.join(buf)
    failed=[]
    for x in re.finditer(r'error: (Verif/[\w/]+\.lean):(\d+):',out):
        t=thm_at(os.path.join(S,x.group(1)),int(x.group(2)))
        e=x.group(1)[6:-5].replace('/','.')+':'+t
        if e not in failed: failed.append(e)
    print(('KILLED ' if failed else 'SURVIVED ')+m['def'],'|',m['edit'],'|',failed)
    if not dry:
        with open('/verif/seeded/LOG.jsonl','a') as f:
            f.write(json.dumps({'definition':m['def'],'edit':m['edit'],'claim':m['claim'],'failed':failed,'tightened':m.get('tightened',[])})+'\n')
sync()
