from goparse import *
import os,subprocess
files=[]
for r,_,fs in os.walk('/repo/testdata/configs'):
    for f in fs:
        p=os.path.join(r,f)
        try: files.append({'path':p[len('/repo/'):],'data':open(p,encoding='utf-8',newline='').read()})
        except UnicodeDecodeError: print('skip',p)
F={f['path']:f['data'] for f in files}
jobs=[];chk=[]
def ev(x):
    if isinstance(x,dict):
        if 'call' in x:
            c=x['call'];a=[ev(y) for y in x['args']]
            if c=='getTestConfigPath': return 'testdata/configs/'+'/'.join(a)
            if c in('pStr','pInt'): return a[0]
            if c=='noSuchFileErrMsg': return 'no such file or directory'
            if c=='fmt.Sprintf':
                s=a[0]
                for y in a[1:]: s=re.sub('%[sd]',lambda m:str(y),s,count=1)
                return s
            if c=='strings.Join': return a[1].join(a[0])
            if c.endswith('.Error'): return 'premature end of file'
            return c
        if 'ident' in x:
            return {'true':True,'false':False,'nil':None}.get(x['ident'],x['ident'])
        if x['ty'] in('[]string',): return [ev(y) for y in x['list']]
        if x['list']: return [ev(y) for y in x['list']]
        if x['kv']: return {k:ev(v) for k,v in x['kv'].items()}
        return []
    return x
def expD(d): return {'directive':d['Directive'],'line':d.get('Line',0),'args':d.get('Args',[]),'file':d.get('File',''),'includes':d.get('Includes',[]),'block':[expD(e) for e in d['Block']] if d.get('Block') else [], 'comment':d.get('Comment'),'map':d.get('IsMapBlockParameter',False)}
def got(d): d=dict(d); d['block']=[got(e) for e in (d['block'] or [])]; return d
def errtext(e):
    # expected ParseError list or kv
    if isinstance(e,list):
        what,file,line=e[0],e[1],e[2]
    else: what,file,line=e.get('What',''),e.get('File'),e.get('Line')
    return f"{what} in {file}"+(f":{line}" if line is not None else "")
def errfull(e):
    if isinstance(e,list): return e[:5]
    return [e.get('What',''),e.get('File'),e.get('Line'),e.get('Statement',''),e.get('BlockCtx','')]
for n,toks in json.load(open('lexfx.json')):
    jobs.append({'kind':'lex','Lua':True,'data':F['testdata/configs/'+n+'/nginx.conf']})
    chk.append(('lex '+n,lambda o,toks=toks:[[t[0],t[1]] for t in o]==[list(t) for t in toks] or [(a,b) for a,b in zip(o,toks) if a[:2]!=list(b)][:3]))
fx=json.load(open('parsefx.json'))
for f in fx['list']:
    n,suf,op,ex=f['list']
    j={'kind':'parse','path':'testdata/configs/'+n+'/nginx.conf'}
    for k,v in op['kv'].items():
        if k=='LexOptions': j['Lua']=True
        else: j[k]=ev(v)
    jobs.append(j)
    e=ev(ex)
    def c(o,e=e):
        if o=='panic' or 'err' in o: return o
        bad=[]
        if o['status']!=e['Status']: bad.append('status')
        if len(o['errors'])!=len(e.get('Errors',[])): bad.append(('nerr',o['errors']))
        else:
            for a,b in zip(o['errors'],e.get('Errors',[])):
                x=[a['error'][k] for k in('what','file','line','statement','blockCtx')]
                if x!=errfull(b['Error']): bad.append((x,errfull(b['Error'])))
                if a['file']!=b['File']: bad.append('errfile')
        for a,b in zip(o['config'],e['Config']):
            if b.get('File') and a['file']!=b['File']: bad.append(('file',a['file'],b['File']))
            if a['status']!=b['Status']: bad.append('cstatus')
            x=[got(d) for d in a['parsed']]; y=[expD(d) for d in b.get('Parsed',[])]
            if x!=y: bad.append(('parsed',json.dumps(x)[:600],json.dumps(y)[:600]))
        if len(o['config'])!=len(e['Config']): bad.append('ncfg')
        return not bad or bad
    chk.append(('parse '+n+suf,c))
src=open('/repo/build_test.go').read()
i=src.index('= []buildFixture{')+2
bx=P(src[i:]).expr()
def dj(d): 
    r={'directive':d['Directive'],'line':d.get('Line',0),'args':d.get('Args',[]),'comment':d.get('Comment')}
    if 'Block' in d: r['block']=[dj(e) for e in d['Block']]
    return r
for f in bx['list']:
    kv=f['kv']; o=kv['options']['kv'] if 'options' in kv else {}
    pr=ev(kv['parsed'])
    jobs.append({'kind':'build','parsed':[dj(d) for d in pr],'Lua':'Builders' in o,'indent':o.get('Indent',0),'tabs':ev(o.get('Tabs',{'ident':'false'})),'header':ev(o.get('Header',{'ident':'false'}))})
    chk.append(('build '+kv['name'],lambda o,x=ev(kv['expected']):o==x or (o,x)))
for s in ["http {{}","http {}}","http {{server {}}","http {server {}}}","server { listen 80;; }","server { listen 80; };","server { listen 80; {}","http{}{}","http{"]:
    jobs.append({'kind':'lex','data':s}); chk.append(('unhappy '+s,lambda o:o[-1][3] is not None))
json.dump({'files':files,'jobs':jobs},open('in.json','w'))
subprocess.run('cd /verif/lean && lake env lean --run /tmp/work/conf/Run.lean',shell=True,check=True)
out=json.load(open('out.json'))
assert len(out)==len(chk)
for o,(n,c) in zip(out,chk):
    r=c(o)
    print(n,'OK' if r is True else r)
