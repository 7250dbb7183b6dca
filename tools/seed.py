#!/usr/bin/env python3
"""Seeded-bug runner.  usage: seed.py spec.json
spec: list of {"def","file","old","new","edit","claim"}.  Works in /tmp/seed (a
scratch copy), appends the outcome to /verif/seeded/LOG.jsonl."""
import json, subprocess, sys, os, re
SRC='/verif/lean'; D='/tmp/seed/lean'
os.makedirs('/tmp/seed', exist_ok=True)
subprocess.run(['rsync','-a','--delete',SRC+'/',D+'/']) if os.path.exists('/usr/bin/rsync') else subprocess.run('rm -rf %s; cp -r %s %s'%(D,SRC,D),shell=True)
def failing(out):
    res=[]
    for m in re.finditer(r'error: (Verif/[\w/]+\.lean):(\d+):', out):
        f,l=m.group(1),int(m.group(2))
        try: lines=open(D+'/'+f).read().split('\n')
        except: continue
        name=None
        for i in range(min(l,len(lines))-1,-1,-1):
            mm=re.match(r'(?:@\[[^\]]*\] )?(?:private )?(theorem|def|lemma|example|instance|abbrev)\s*([\w\.\']*)',lines[i])
            if mm: name=(mm.group(2) if mm.group(2) else mm.group(1)+'@%s:%d'%(f,i+1)); break
        if name and name not in res: res.append(name)
    return res
def modfail(out):
    return re.findall(r'^- (Verif\S*)', out, re.M)
for s in json.load(open(sys.argv[1])):
    p=D+'/'+s['file']; t=open(p).read()
    n=t.count(s['old'])
    if n!=1 and not s.get('all'):
        print('!! old text occurs',n,'times:',s['def'],s['old']); continue
    open(p,'w').write(t.replace(s['old'],s['new']))
    r=subprocess.run(['lake','build','Verif'],cwd=D,capture_output=True,text=True)
    out=r.stdout+r.stderr
    fl=failing(out)
    open(p,'w').write(t)
    e={'definition':s['def'],'file':s['file'],'edit':s['edit'],'claim':s['claim'],
       'theorems_failed':fl,'modules_failed':modfail(out),'theorems_tightened':s.get('tightened',[])}
    if r.returncode==0: e['result']='SURVIVED'
    print(json.dumps(e))
    if not s.get('dry') : open('/verif/seeded/LOG.jsonl','a').write(json.dumps(e)+'\n')
subprocess.run(['lake','build','Verif'],cwd=D,capture_output=True)
