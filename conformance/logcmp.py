find='find_me.txt'.encode('utf-16le').hex()
for f,maj,rafm,mft,notfoundF,diffpos in (('LogFile_7','1.1','0',{40},True,True),('LogFile_10','2.0','1',{43},True,True),('LogFile_10_downgraded','1.1','1',{43},False,False),('LogFile_10_large','2.0','1',{5,39},True,True)):
    L=open(f'/root/conf/{f}.out').read().split('\n')
    rp=[l.split() for l in L if l.startswith('RP ')]; assert len(rp)==2
    assert all(r[1]==maj and r[2]=='1' for r in rp)
    rl=max(int(r[3]) for r in rp)
    F=[l.split(' ') for l in L if l.startswith('F ') and ' END ' not in l]; T=[l.split(' ') for l in L if l.startswith('T ') and ' END ' not in l]
    print(f,[l for l in L if 'END' in l],len(F),len(T))
    lf=[int(x[2]) for x in F]; lt=[int(x[2]) for x in T]
    assert len(set(lf))==len(lf) and len(set(lt))==len(lt)
    assert (rl not in lf)==notfoundF and rl in lt
    d=set(lt)-set(lf); assert (len(d)>0)==diffpos and all(x>max(lf) for x in d)
    c=0
    for x in T:
        if x[1]=='RA': assert x[3]==rafm and x[4]=='4096',x
        else:
            u=[y for y in x if y.startswith('undo=')][0]
            if find in u:
                c+=2; m=x[7]; 
                if m!='mft=None': assert int(m[4:]) in mft,m
                else:
                    o=[y for y in x if y.startswith('oat=')][0]; print('  ',o); assert o!='oat=None'; r,n=o[4:].split(':'); assert int(r)&0xffffffffffff==5 and n=='$I30'
    assert c==4,c
print(open('LogFile_empty.out').read()[-100:])
