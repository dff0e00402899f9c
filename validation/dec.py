import zlib,struct,sys,os
def png(b):
    p=8;idat=b'';plte=None;trns=None
    while p<len(b):
        n,=struct.unpack('>I',b[p:p+4]);t=b[p+4:p+8];d=b[p+8:p+8+n];p+=12+n
        if t==b'IHDR': w,h,bd,ct,_,_,il=struct.unpack('>IIBBBBB',d)
        if t==b'PLTE': plte=d
        if t==b'IDAT': idat+=d
    assert il==0
    raw=zlib.decompress(idat);ch={0:1,2:3,3:1,4:2,6:4}[ct];bpp=max(1,ch*bd//8);st=(w*ch*bd+7)//8
    out=bytearray();prev=bytearray(st);q=0
    for y in range(h):
        f=raw[q];line=bytearray(raw[q+1:q+1+st]);q+=1+st
        for i in range(st):
            a=line[i-bpp] if i>=bpp else 0;u=prev[i];c=prev[i-bpp] if i>=bpp else 0
            if f==1:line[i]=(line[i]+a)&255
            elif f==2:line[i]=(line[i]+u)&255
            elif f==3:line[i]=(line[i]+(a+u)//2)&255
            elif f==4:
                pp=a+u-c;pa,pb,pc=abs(pp-a),abs(pp-u),abs(pp-c)
                pr=a if pa<=pb and pa<=pc else (u if pb<=pc else c)
                line[i]=(line[i]+pr)&255
        prev=line
        for x in range(w):
            def samp(k):
                if bd==8:return line[k]
                if bd==16:return line[2*k]
                v=line[k*bd//8]>>(8-bd-(k*bd%8))&((1<<bd)-1)
                return v
            if ct==0:
                v=samp(x); out.append(v if bd>=8 else v*255//((1<<bd)-1))
            elif ct==3:
                v=samp(x);out.append(luma(*plte[3*v:3*v+3]))
            elif ct==4: out.append(samp(2*x))
            else:
                out.append(luma(samp(ch*x),samp(ch*x+1),samp(ch*x+2)))
    return w,h,bytes(out),(bd,ct)
def luma(r,g,b): return (2126*r+7152*g+722*b)//10000
def gif(b):
    w,h,fl,bg,_=struct.unpack('<HHBBB',b[6:13]);p=13;gct=None
    if fl&128: n=3<<((fl&7)+1);gct=b[p:p+n];p+=n
    tr=None
    while True:
        t=b[p];p+=1
        if t==0x21:
            lab=b[p];p+=1
            if lab==0xf9 and b[p+1]&1: tr=b[p+4]
            while b[p]: p+=b[p]+1
            p+=1
        elif t==0x2c:
            x0,y0,iw,ih,f2=struct.unpack('<HHHHB',b[p:p+9]);p+=9;ct=gct
            if f2&128: n=3<<((f2&7)+1);ct=b[p:p+n];p+=n
            mcs=b[p];p+=1;data=b''
            while b[p]: data+=b[p+1:p+1+b[p]];p+=b[p]+1
            p+=1
            break
    clear=1<<mcs;eoi=clear+1;out=[];bits=0;nb=0;sz=mcs+1;tab=None;prev=None
    for by in data:
        bits|=by<<nb;nb+=8
        while nb>=sz:
            c=bits&((1<<sz)-1);bits>>=sz;nb-=sz
            if c==clear: tab=[bytes([i]) for i in range(clear)]+[b'',b''];sz=mcs+1;prev=None;continue
            if c==eoi: break
            if prev is None: e=tab[c]
            else:
                e=tab[c] if c<len(tab) else prev+prev[:1]
                if len(tab)<4096: tab.append(prev+e[:1])
                if len(tab)==(1<<sz) and sz<12: sz+=1
            out.extend(e);prev=e
    assert len(out)>=iw*ih,(len(out),iw,ih)
    if f2&64:
        rows=list(range(0,ih,8))+list(range(4,ih,8))+list(range(2,ih,4))+list(range(1,ih,2))
        o2=[0]*(iw*ih)
        for k,r in enumerate(rows): o2[r*iw:(r+1)*iw]=out[k*iw:(k+1)*iw]
        out=o2
    assert (x0,y0,iw,ih)==(0,0,w,h)
    return w,h,bytes(luma(*ct[3*v:3*v+3]) if v!=tr else 0 for v in out[:w*h]),(tr,)
for d,n in [('tests/data','github.gif'),('tests/data','mirrored.gif'),('tests/data','number.gif'),('tests/data','rqrr.gif'),('tests/data','rqrr_incomplete.gif'),('src/test_data','cap.png'),('src/test_data','cap_connect.png'),('src/test_data','cap_disconnect.png'),('src/test_data','cap_size.png'),('tests/data/errors','data_ecc.png'),('tests/data/errors','format_ecc.png'),('tests/data/errors','invalid_version.gif'),('tests/data/errors','io_error.png'),('tests/data/full','multiple.png'),('tests/data/full','multiple_rotated.png'),('tests/data/full','superlong.gif'),('benches/data','art.png'),('benches/data','art_small.png')]:
    b=open('/repo/'+d+'/'+n,'rb').read()
    w,h,px,info=(gif if n.endswith('gif') else png)(b)
    open('img/'+n+'.raw','wb').write(struct.pack('<II',w,h)+px)
    print(n,w,h,info,len(set(px)))
