import json,sys,subprocess,re,os
muts=json.load(open(sys.argv[1])); out=sys.argv[2]
base='/tmp/mut/lean'
names_cache={}
def encl(path,line):
    ls=open(path).read().split('\n')
    for i in range(min(line,len(ls))-1,-1,-1):
        m=re.match(r'\s*(?:private |protected )?(theorem|def|example|instance|lemma|abbrev)\s*([^\s:({\[]*)',ls[i])
        if m: return (m.group(2) or m.group(1))
    return '?'
done=set()
if os.path.exists(out):
    for l in open(out): done.add(json.loads(l)['id'])
for m in muts:
    if m['id'] in done: continue
    subprocess.run(f'rm -rf {base} && cp -a /verif/lean {base}',shell=True,check=True)
    p=f"{base}/Verif/{m['file']}"
    s=open(p).read()
    if s.count(m['old'])<1:
        r={'id':m['id'],'result':'NOMATCH'}
    else:
        s=s.replace(m['old'],m['new'],1); open(p,'w').write(s)
        try:
            pr=subprocess.run(['lake','build'],cwd=base,capture_output=True,text=True,timeout=1500)
            txt=pr.stdout+pr.stderr
        except subprocess.TimeoutExpired:
            txt='TIMEOUT'; pr=None
        errs=[]
        for f,l in re.findall(r'error: (?:\./)?(?:\.\./)*(Verif/[\w/]+\.lean):(\d+):',txt):
            e=f"{f[6:-5]}:{encl(base+'/'+f,int(l))}"
            if e not in errs: errs.append(e)
        blocked=sorted(set(re.findall(r'^- (Verif[\w.]*)',txt,re.M)))
        r={'id':m['id'],'result':'TIMEOUT' if pr is None else ('SURVIVED' if pr.returncode==0 else 'killed'),'failed':errs,'targets':blocked}
    open(out,'a').write(json.dumps(r)+'\n')
    print(m['id'],r['result'],r.get('failed'),flush=True)
