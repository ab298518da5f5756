import subprocess,hashlib,sys
def lean(*a):
    return subprocess.run(['lake','env','lean','--run','/root/conf/exfat.lean',*a],cwd='/verif/lean',capture_output=True,text=True).stdout.split('\n')
def parse(o):
    R=[];H=[]
    for l in o:
        p=l.split('\t')
        if p[0]=='F': R.append(dict(t='F',name=p[1],dir=p[2]=='true',dele=p[3]=='true',m=p[4],a=p[5],c=p[6],mtz=p[7],atz=p[8],ctz=p[9],size=int(p[10]),vdl=int(p[11]),clus=int(p[12]),enc=p[13]=='true',nfc=p[14]=='true',al=p[15],data=p[16]))
        elif p[0] in 'OL' and p[0]: R.append(dict(t=p[0],name=p[1]))
        elif p[0]=='B': R.append(dict(t='B'))
        elif l: H.append(l)
    return R,H
def vol(f,off,size,scan=0,data=0): return parse(lean('vol','/root/conf/data/'+f,str(off),str(size),str(scan),str(data)))
def dire(f,root,pad=0): return parse(lean('dir','/repo/test_data/'+f,str(root),str(pad)))
T='/repo/test_data/'
for f,pad,exp in (('exfat_label.bin',384,['TeSt_Пре']),('exfat_label_2.bin',0,['0987654321a']),('exfat_dir.bin',0,[]),('exfat_label_dotdot.bin',0,['..'])):
    R,H=dire(f,1,pad); assert [r['name'] for r in R if r['t']=='L']==exp,(f,R,H); print(f,H)
R,H=dire('exfat_dir.bin',0); assert not R; print(H)
R,H=dire('exfat_dir.bin',1); print(H)
assert [r['name'] for r in R if r['t']=='O']==[ 'test' * 63 + 'ttt', 't' ]
assert R[0]['t']=='B' and [r['name'] for r in R if r['t']=='F']==[ '1.txt', '2.txt', 'test', 'test' * 63 + 'ttt' ]
R,H=dire('exfat_dir_sony.bin',0); print(H)
F=[r for r in R if r['t']=='F']; assert sum(not r['dele'] for r in F)==15 and sum(r['dele'] for r in F)==1 and len(R)-len(F)>1
for i in range(1,6): assert sum(r['name']=='966_000%d.MXF'%i for r in F)==1
R,H=vol('exfat_lin_part.raw',0,129024*512); assert H[0].startswith('FAIL') and 'BootRegionException' in H[0],H
R,H=vol('exfat_lin_part.raw',2048*512,129024*512,0,1); print(H)
assert H[0].startswith('OPEN false')
res=[l for l in open(T+'exfat_lin_part.txt',encoding='utf-8').read().splitlines() if not l.startswith('#')]
orphans=['/' + 'test' * 63 + 'ttt', '/t']; c=h=0
def fm(x,t): return x.split('|')[0][:11]+t+' (MSK)'
for r in R:
    if r['t']=='O': assert r['name']==orphans.pop(0); continue
    c+=1
    if c==1: assert r['t']=='L' and r['name']=='1234567890abcde'; continue
    assert r['t']=='F'
    if not r['dele'] and r['clus']>0: assert r['al']=='some true',r['al']
    x=res.pop(0).split('\t'); assert not r['enc']
    assert x[0].split(' ')[0]==('d/d' if r['dir'] else 'r/r') and r['name'][1:]==x[1]
    assert r['mtz']==r['atz']==r['ctz']=='none'
    assert fm(r['m'],r['m'].split('|')[0][11:])==x[2]; assert fm(r['a'],'00:00:00')==x[3]
    s=fm(r['c'],r['c'].split('|')[0][11:])
    if s[-7] in '13579': s=s[:-7]+chr(ord(s[-7])-1)+s[-6:]
    assert s==x[5]; assert str(r['size'])==x[6]
    e={'/1.txt':'ba1f2511fc30423bdbb183fe33f3dd0f','/2.txt':'d2d362cdc6579390f1c0617d74a7913d'}.get(r['name'],'d41d8cd98f00b204e9800998ecf8427e' if r['name'].startswith('/test/') and r['name'].endswith('.txt') else None)
    if e: h+=1; assert hashlib.md5(bytes.fromhex(r['data'])).hexdigest()==e
assert not res and not orphans and h==9,h
print('full1 ok')
R,H=vol('exfat_win.raw',12*512,6291456); assert 'FileSystemException' in H[0],H
R,H=vol('exfat_win.raw',0,6291456,0,1); print(H); assert H[0].startswith('OPEN false')
cl=0; cnt=dict(afr=0,afs=0,of=0,rf=0,ad=0,rd=0); deleted=[ '/1.bin', '/333.bin', '/555.bin', '/Текстовый документ.txt' ]; fu=fl=ff=0
res=open(T+'exfat_win_stat.txt','rb').read().decode('windows-1251').splitlines()
def pt(x):
    a,b=x.split('|'); return a if b=='0' else a+'.%06d'%int(b)
for r in R:
    if r['t']=='L': cl+=1; assert r['name']=='test123'; continue
    assert r['t']=='F' and not r['enc'] and r['mtz']==r['atz']==r['ctz']=='some 12',r
    if not r['dir'] and not r['dele']:
        assert r['al']=='some true'; b=bytes.fromhex(r['data'])
        if r['name'].endswith('.bin'):
            cnt['afr' if r['name'].count('/')==1 else 'afs']+=1
            assert r['name'].split('.')[0].split('/')[-1].encode()==b and r['nfc']
        else:
            cnt['of']+=1
            if r['name']=='/'+'very_long_file_name'*12: assert b==b'\xaa'*2875392 and r['nfc']; fl+=1
            elif r['name']=='/fragmented_file_and_long_name_'+'l'*108+'.txt': assert not r['nfc'] and b==b'test test\r\ntest test'+b'append'*4096; ff+=1
    elif not r['dir']:
        cnt['rf']+=1; assert r['name']==deleted.pop(0)
        if r['name'].startswith('/Т'): assert r['al']=='none' and r['size']==0 and r['clus']==0
        else: assert r['al']=='some true'
    elif r['dele']: cnt['rd']+=1; assert r['name']=='/0'
    else:
        assert r['al']=='some true'; cnt['ad']+=1; fu+=r['name']=='/2/Новая папка'
    if not r['dele']: res.remove('\t'.join([r['name'],pt(r['m']),pt(r['a']),pt(r['c']),str(0 if r['dir'] else r['size'])]))
assert cl==1 and cnt==dict(afr=297,afs=100,of=4,rf=4,ad=301,rd=1) and (fu,fl,ff)==(1,1,1) and not deleted and not res
print('full2 ok')
R,H=vol('win_exfat_7.raw',0,6291456,0,1); print(H); assert H[0]=='OPEN true %d'%0x947889E1
see=[ '/Новый текстовый документ.txt', '/1', '/1/2', '/1/3', '/тест.txt' ]
for r in R:
    assert r['t']=='F' and not r['enc']
    if r['name'].startswith('/1'): assert r['al']=='some false',r
    if r['name']!='/тест.txt': assert r['mtz']==r['atz']==r['ctz']=='some 23'
    else: assert r['ctz']=='some 23' and r['atz']==r['mtz']=='some (-40)',r
    see.remove(r['name'])
assert not see; print('full3 ok')
R,H=vol('exfat_encrypted.raw',0,33554432); print(H)
see=[ '/System Volume Information', '/System Volume Information/WPSettings.dat', '/System Volume Information/IndexerVolumeGuid', '/encrypted_dir', '/encrypted_dir/$EFS', '/encrypted_dir/1.bin.PFILE', '/encrypted_dir/3.bin.PFILE', '/encrypted_dir/15.bin.PFILE', '/encrypted_dir/16.bin.PFILE', '/encrypted_dir/17.bin.PFILE', '/encrypted_dir/18.bin.PFILE', '/encrypted_dir/32.bin.PFILE', '/encrypted_dir/31.bin.PFILE', '/usual_dir', '/usual_dir/2.bin.PFILE', '/usual_dir/0.bin.PFILE' ]
fd=0
for r in R:
    if r['t']=='L': assert r['name']=='encrypted'; continue
    if r['dele']:
        if r['name']=='/'+'a'*249+'.PFILE': assert r['enc'] and r['size']==4112; fd+=1
        continue
    assert r['name']==see.pop(0)
    if r['name'].endswith('.PFILE'):
        assert r['enc']
        if r['name']!='/usual_dir/0.bin.PFILE': assert r['size']>4096 and r['size']%16==0 and r['vdl']==r['size']
        else: assert r['size']==4096 and r['vdl']==0
    elif r['name']=='/encrypted_dir': assert r['enc']
    elif r['name']=='/usual_dir': assert not r['enc']
assert fd and not see; print('enc ok')
R,H=vol('exfat_orphan.raw',0,'-',1); print(H); c=0
for r in R:
    if r['name']=='/test': assert r['clus']==6; continue
    assert r['name'].endswith('.txt') and r['dele'] and not r['dir'] and r['size']==0; c+=1
assert c==400
R,H=vol('exfat_orphan.raw',0,'-',0); assert len(R)==401 and all(r['name']=='/test' or r['name'].startswith('<Orphan directory 6>/') for r in R)
print('orphan ok')
