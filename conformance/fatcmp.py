import subprocess,datetime,sys
def run(f,scan,want='-',off=0):
    o=subprocess.run(['lake','env','lean','--run','/root/conf/fat.lean','/root/conf/data/'+f,str(scan),want,str(off)],cwd='/verif/lean',capture_output=True,text=True).stdout.split('\n')
    R=[]; D=None
    for l in o:
        if l.startswith('F\t'):
            p=l.split('\t'); R.append(dict(short=p[1],long=None if p[2]=='None' else p[2],dir=p[3]=='dir=true',deleted=p[4],mtime=p[5],size=int(p[8][5:]),clus=int(p[10][5:]),raw=p[12]))
        elif l.startswith('O\t'): R.append(dict(orphan=l))
        elif l.startswith('D\t'): D=l[2:]
        elif l.startswith(('END','FAIL','fuel')): print(f,scan,l)
    return R,D
def nm(r): return r['long'] if r['long'] is not None else r['short']
def full(f,res,sep,want):
    R,D=run(f,0,want); res=open('/repo/test_data/'+res,'rb').read().decode().splitlines()
    for r in R:
        assert 'orphan' not in r
        if (r['dir'] and r['short'].endswith(('/.','/..'))) or r['deleted']=='del=some true': continue
        t=datetime.datetime.strptime(r['mtime'][:-2],'%Y-%m-%d %H:%M:%S')+datetime.timedelta(hours=3)
        x=res.pop(0); assert x==nm(r)+sep+t.strftime('%Y-%m-%d+%H:%M:%S')+'.0000000000',(x,r)
    assert not res; return D
assert full('fat12.raw','fat12_full_test.txt','\t','/265/find_me.txt')=='fe'*8192+b'the end'.hex()
assert full('fat16.raw','fat16_full_test.txt',' ','/265/find_me.txt')=='fe'*8192+b'the end'.hex()
R,_=run('fat16_moved.raw',1); L=[r['short'].lower() for r in R]; assert '/test/1/_1/1.txt' in L and '/test/2/11/1.txt' in L
R,_=run('fat16_moved.raw',0); L=[r['short'].lower() for r in R]; assert '/test/1/_1/1.txt' not in L and '/test/2/11/1.txt' in L and '/test/1/_1' in L
R,_=run('fat_noloop.raw',0); assert sum(not(r['dir'] and r['short'].endswith(('/.','/..'))) for r in R)==5
R,_=run('fat_unusual_label.raw',0); assert [(r['short'],r['raw']) for r in R]==[('/ tEst1.234',b' tEst1.234'.hex())],R
R,D=run('fat_unusual_cluster.raw',0,'/test_test_test_123_123_123.txt'); assert len(R)==1 and bytes.fromhex(D)==b'456\n'
R,_=run('fat_deleted_dir_2.raw',0); assert len(R)==70; 
assert [nm(r) for r in R if r['short'].endswith('.') or (r['long'] and r['long'].endswith('.txt'))]==[ '/_/.', '/_/..', '/_/.', '/_/..', '/_/2.txt', '/_/22.txt' ]
for w,d in (('/test/1.TXT',b'test1\n'),('/test/2.TXT',b'test2\n')):
    R,D=run('fat32_small.raw',0,w); assert bytes.fromhex(D)==d; assert sum(not(r['dir'] and r['short'].endswith(('/.','/..'))) for r in R)==4
if len(sys.argv)>1:
    R,_=run('fat32_loop.raw',0); c=sum(not(r['dir'] and r['short'].endswith(('/.','/..'))) for r in R); print(c); assert 50<c<100
    R,_=run('fat_dir.raw',1); R=[r for r in R if r['short'] not in [ '/_EST', '/test/.', '/test/..' ]]; assert len(R)==400 and all(r['short'].endswith('.TXT') and r['deleted']=='del=some true' and not r['dir'] and r['size']==0 for r in R)
    R,_=run('fat_dir.raw',0); assert len(R)==403,len(R)
    R,_=run('fat_deleted_dir.raw',0); l=[nm(r) for r in R]
    ll=[ '.', '..', '_', '_', '_', '_', '_', '_', '_', '_', '_', '_0', '_1', '_2', '_3', '_4', '_5', '_6', '_7', '_8', '_9', '_0', '_1', '_2', '_3', '_4', '_5', '_6', '_7', '_8', '_9', '_0' ]
    assert [x[6:] for x in l if x.startswith('/test/')]==ll and [x for x in l if not x.startswith('/test/')]==[ '/test', '/test_2', '/test_2/.', '/test_2/..', '/test_2/1.txt', '/test_2/2.txt' ]
    R,_=run('fat64.raw',0,'-',2048*512); l=[ '/test', '/test/.', '/test/..', '/test/test.test' ]; assert len(R)==4 and all(p in (r['short'],r['long']) for p,r in zip(l,R))
print('ok')
