import subprocess
T='/repo/test_data/'
def run(buf,fat32=1,cp='ascii'):
    open('/root/conf/tmp.bin','wb').write(buf)
    o=subprocess.run(['lake','env','lean','--run','/root/conf/fatdir.lean','/root/conf/tmp.bin',str(fat32),cp],cwd='/verif/lean',capture_output=True,text=True).stdout.split('\n')
    R=[]
    for l in o:
        p=l.split('\t')
        if p[0]=='O': R.append(dict(t='O',long=p[1]))
        elif p[0]=='F': R.append(dict(t='F',short=p[1],long=None if p[2]=='None' else p[2],dir=p[3]=='true',dele=p[4],m=p[5],c=p[6],a=p[7],size=int(p[8]),attr=int(p[9]),clus=int(p[10]),enc=p[11],nt=int(p[12]),raw=bytes.fromhex(p[13])))
        elif l: print(l)
    return R
rd=lambda f: open(T+f,'rb').read()
R=run(rd('fat32_dirent.bin'),1,'cp866'); assert len(R)==24
L=[ 'usual_2.txt.PFILE', 'empty.txt.PFILE', 'usual_.txt.PFILE', 'Текстовый документ.txt', 'Текстовый документ.txt.PFILE', 'new.txt.PFILE', 'Текстовый документ.txt', 'Текстовый документ.txt.PFILE', 'new_2_.txt.PFILE', 'very long file name here, this is a test.txt', 'very long file name here, this is a test.txt.PFILE', 'привет.txt', 'привет.txt.PFILE' ]
assert [r['long'] for r in R if r['long'] is not None]==L
x=[r for r in R if r['short']=='_sual.txt']; assert len(x)==1; x=x[0]; print(x)
assert x['raw']==b'_SUAL.TXT' and x['dele']=='some true' and not x['dir'] and x['long'] is None and x['size']==0 and x['enc']=='true' and x['clus']==12 and x['nt']==0x19 and x['attr']==0x20 and x['a']=='2021-11-13' and x['c'].startswith('2021-11-13 17:21:16.') and x['m']=='2021-11-13 17:19:50.0'
x=[r for r in R if r['short']=='$EFS']; assert len(x)==1; x=x[0]
assert x['raw']==b'$EFS' and x['dele']=='some false' and x['size']==680 and x['enc']=='false' and x['clus']==14 and x['nt']==0 and x['attr']==6 and x['a']=='2021-11-13' and x['c']=='2021-11-13 17:21:33.70000' and x['m']=='2021-11-13 17:21:34.0',x
assert any('ривет' in r['short'].lower() for r in R)
R=run(rd('fat32_dirent_2.bin')); assert len(R)==3; x=[r for r in R if r['short']=='1']; assert len(x)==1; x=x[0]
assert x['dir'] and x['dele']=='some false' and x['long'] is None and x['size']==0 and x['clus']==4 and x['attr']==0x10 and x['a']=='2020-12-10' and x['c']=='2021-12-1 22:53:32.0' and x['m']=='2021-12-1 22:50:48.0',x
b=rd('fat32_dirent_3.bin'); R=run(b+bytes(512-len(b))); assert len(R)==1; x=R[0]; print(x['short'],x['raw'],x['size'],x['clus'])
b=rd('fat32_dirent_orphan_lfn.bin'); R=run(b,1,'cp866'); assert len(R)==20 and [r['long'] for r in R if r['t']=='O']==['long_name_test.txt']
x=[r for r in R if r['t']=='F' and r['short']=='SHORT.TXT' and r['long'] is None and not r['dir']]; assert x and all(y['raw']==b'SHORT.TXT' for y in x)
R=run(b.replace(b'SHORT   TXT', b'\xE5HORT   TXT', 1),1,'cp866'); assert len(R)==19 and all(r['t']=='F' for r in R)
x=[r for r in R if r['short']=='_HORT.TXT' and not r['dir']]; assert x and all(y['raw']==b'_HORT.TXT' and y['long']=='long_name_test.txt' for y in x)
R=run(rd('fat32_dirent_verylong.bin'),1,'cp866'); assert [r['long'] for r in R]==[ 'АБВГДЕЖЗИЙКЛМНО' * 17, ('1БВГДЕЖЗИЙКЛМНО' * 17)[:-1], ('2БВГДЕЖЗИЙКЛМНО' * 17)[:-2], ('3БВГДЕЖЗИЙКЛМНО' * 17)[:-3], 'Я' ] and all(r['enc']=='false' for r in R)
for f in ('fat_dir_orphan.bin','fat_dir_orphan_del.bin'):
    b=rd(f); pad=lambda b: b+bytes(512-len(b))
    R=run(pad(b)); assert [(r['t'],r['long']) for r in R]==[('F','1234567890.txt'),('F','123456789_.txt')]
    R=run(pad(b[:64]+b[96:])); assert [r['long'] for r in R]==['1234567890.txt','123456789_.txt'] and sum(r['t']=='F' for r in R)==1
    R=run(pad(b[:32]+b[96:])); assert [r['long'] for r in R]==['t','123456789_.txt'] and sum(r['t']=='F' for r in R)==1
b=rd('fat_dir_alfn_dsfn.bin'); R=run(b,0); assert [(r['t'],r['short'],r['long'],r['dele']) for r in R]==[('F','_AA.TXT','AaA.txt','some true')],R
R=run(pad(b[:32]),0); assert [(r['t'],r['long']) for r in R]==[('O','AaA.txt')]
R=run(b'\xe5'*480+b[:32],0); assert [(r['t'],r['long']) for r in R]==[('O','AaA.txt')]
print('ok')
