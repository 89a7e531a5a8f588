"""A reader for the netCDF-4 files shipped with the model (HDF5, superblock 2, chunked, deflate and shuffle), standard library only."""
import struct, zlib, array, sys
def msgs(b, off):
    assert b[off:off+4]==b'OHDR' and b[off+4]==2
    fl=b[off+5]; p=off+6
    if fl&32: p+=16
    if fl&16: p+=4
    n=1<<(fl&3); sz=int.from_bytes(b[p:p+n],'little'); p+=n
    chunks=[(p,p+sz)]; out=[]
    while chunks:
        p,e=chunks.pop(0)
        while p+4<=e:
            t=b[p]; s=struct.unpack_from('<H',b,p+1)[0]; f=b[p+3]; p+=4
            if fl&4: p+=2
            d=b[p:p+s]; p+=s
            if t==0x10:
                o,l=struct.unpack('<QQ',d[:16]); chunks.append((o+4,o+l-4))
            elif t: out.append((t,d))
    return out
def btree(b,addr,nd):
    assert b[addr:addr+4]==b'TREE'
    lvl=b[addr+5]; n=struct.unpack_from('<H',b,addr+6)[0]; p=addr+24; res=[]
    for i in range(n):
        sz,mask=struct.unpack_from('<II',b,p); offs=struct.unpack_from('<%dQ'%nd,b,p+8); p+=8+8*nd
        ch=struct.unpack_from('<Q',b,p)[0]; p+=8
        if lvl: res+=btree(b,ch,nd)
        else: res.append((sz,mask,offs,ch))
    return res
def datasets(path):
    b=open(path,'rb').read(); res=[]
    i=b.find(b'OHDR')
    while i>=0:
        try: ms=msgs(b,i)
        except Exception as ex: ms=[]
        d={}
        for t,m in ms: d.setdefault(t,m)
        if 1 in d and 3 in d and 8 in d: res.append(read(b,d,ms))
        i=b.find(b'OHDR',i+4)
    return res
def read(b,d,ms):
    m=d[1]
    nd=m[1]; dims=struct.unpack_from('<%dQ'%nd,m,8 if m[0]==1 else 4)
    t=d[3]; cls=t[0]&15; size=struct.unpack_from('<I',t,4)[0]; big=t[1]&1; signed=(t[1]>>3)&1
    tc={(0,1):'bB'[1-signed],(0,2):'hH'[1-signed],(0,4):'iI'[1-signed],(0,8):'qQ'[1-signed],(1,4):'f',(1,8):'d'}.get((cls,size))
    if tc is None: return dict(dims=dims,type=None)
    L=d[8]; tot=1
    for x in dims: tot*=x
    out=bytearray(size*tot); fill=None
    if 5 in d:
        f=d[5]
        if f[0]==3 and f[1]&32:
            n=struct.unpack_from('<I',f,2)[0]; fill=f[6:6+n]
        elif f[0]==2 and f[3]:
            n=struct.unpack_from('<I',f,4)[0]; fill=f[8:8+n]
    if fill: out[:]=bytes(fill)*tot
    ver=L[0]
    assert ver==3,ver
    if L[1]==1:
        a,s=struct.unpack_from('<QQ',L,2)
        if a!=2**64-1: out[:]=b[a:a+size*tot]
    elif L[1]==0:
        s=struct.unpack_from('<H',L,2)[0]; out[:]=L[4:4+s]
    else:
        n1=L[2]; a=struct.unpack_from('<Q',L,3)[0]; cd=struct.unpack_from('<%dI'%n1,L,11)[:nd]
        filt=[]
        if 0xb in d:
            f=d[0xb]; p=2 if f[0]==2 else 8
            for _ in range(f[1]):
                i=struct.unpack_from('<H',f,p)[0]; p+=2
                nl=0
                if f[0]==1 or i>=256: nl=struct.unpack_from('<H',f,p)[0]; p+=2
                fl,nc=struct.unpack_from('<HH',f,p); p+=4+nl+4*nc
                if f[0]==1 and nc%2: p+=4
                filt.append(i)
        if a!=2**64-1:
          for sz,mask,offs,ch in btree(b,a,n1):
            raw=b[ch:ch+sz]
            for k,i in reversed(list(enumerate(filt))):
                if mask>>k&1: continue
                if i==1: raw=zlib.decompress(raw)
                elif i==3: raw=raw[:-4]
                elif i==2:
                    n=len(raw)//size; o=bytearray(len(raw))
                    for j in range(size): o[j::size]=raw[j*n:(j+1)*n]
                    raw=bytes(o)
                else: raise Exception(i)
            place(out,raw,dims,cd,offs[:nd],size)
    a=array.array(tc); a.frombytes(bytes(out))
    if big: a.byteswap()
    return dict(dims=dims,type=tc,data=a,fill=fill)
def place(out,raw,dims,cd,offs,size):
    nd=len(dims)
    import itertools
    row=min(cd[-1],dims[-1]-offs[-1])
    for idx in itertools.product(*[range(min(cd[k],dims[k]-offs[k])) for k in range(nd-1)]):
        src=0; dst=0
        for k in range(nd-1):
            src=src*cd[k]+idx[k]; dst=dst*dims[k]+offs[k]+idx[k]
        src*=cd[-1]; dst=dst*dims[-1]+offs[-1]
        out[dst*size:(dst+row)*size]=raw[src*size:(src+row)*size]
