import re,datetime,hashlib
for l in open('/root/conf/attr.out'):
    l=l.rstrip()
    m=re.search(r'RP ([0-9a-f]+)',l)
    if m: l='RP md5 '+hashlib.md5(bytes.fromhex(m[1])).hexdigest()
    l=re.sub(r'\b\d{16,18}\b',lambda m:str(datetime.datetime(1,1,1)+datetime.timedelta(microseconds=int(m[0]))) ,l)
    print(l[:400])
