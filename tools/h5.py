import struct
class H5:
    def __init__(s,path):
        s.d=open(path,'rb').read()
        s.root=struct.unpack('<Q',s.d[12+24:12+32])[0]
    def u(s,off,n): return int.from_bytes(s.d[off:off+n],'little')
    def msgs(s,addr):
        d=s.d; assert d[addr:addr+4]==b'OHDR',addr
        fl=d[addr+5]; p=addr+6
        if fl&0x20: p+=16
        if fl&0x10: p+=4
        n=1<<(fl&3); sz=s.u(p,n); p+=n
        out=[]; blocks=[(p,p+sz)]
        while blocks:
            a,b=blocks.pop(0)
            while a+4+(2 if fl&4 else 0)<=b:
                t=d[a]; ln=s.u(a+1,2); mf=d[a+3]; a+=4
                if fl&4: a+=2
                if t==0x10:
                    o=s.u(a,8); l=s.u(a+8,8); assert d[o:o+4]==b'OCHK'; blocks.append((o+4,o+l-4))
                else: out.append((t,a,ln))
                a+=ln
        return out
    def link(s,a):
        d=s.d; v=d[a]; assert v==1,(v,a); f=d[a+1]; p=a+2
        typ=0
        if f&8: typ=d[p]; p+=1
        if f&4: p+=8
        if f&16: p+=1
        n=1<<(f&3); ln=s.u(p,n); p+=n
        name=d[p:p+ln].decode(); p+=ln
        assert typ==0
        return name,s.u(p,8),p+8
    def links(s,addr):
        res={}
        for t,a,l in s.msgs(addr):
            if t==6:
                n,o,_=s.link(a); res[n]=o
            if t==2:
                f=s.d[a+1]; p=a+2
                if f&1:p+=8
                fh=s.u(p,8)
                if fh!=(1<<64)-1: res.update(s.heap(fh))
        return res
    def heap(s,a):
        d=s.d; assert d[a:a+4]==b'FRHP'
        # root block addr
        idl=s.u(a+5,2); fl=d[a+9]
        p=a+10+4+8+8+8+8+8+8+8+8+8+8+8+8  # skip
        # fields: max managed obj(4), next huge(8), btree huge(8), free space(8), fs mgr addr(8), managed space(8), alloc managed(8), iter(8), nmanaged(8), hugesize(8), nhuge(8), tinysize(8), ntiny(8), table width(2), start block(8), maxdirect(8), max heap bits(2), start rows(2), root addr(8), cur rows(2)
        tw=s.u(p,2); sb=s.u(p+2,8); md=s.u(p+10,8); bits=s.u(p+18,2); root=s.u(p+22,8); rows=s.u(p+30,2)
        res={}
        def direct(b,size):
            assert d[b:b+4]==b'FHDB'
            q=b+4+1+8+(bits+7)//8+(4 if fl&2 else 0)
            while q<b+size and d[q]==1:
                try: n,o,q=s.link(q)
                except Exception as e: break
                res[n]=o
        if rows==0: direct(root,sb)
        else:
            assert d[root:root+4]==b'FHIB'
            q=root+4+1+8+(bits+7)//8
            for r in range(rows):
                size=sb if r<2 else sb<<(r-1)
                for c in range(tw):
                    x=s.u(q,8); q+=8
                    if x!=(1<<64)-1: direct(x,size)
        return res
    def data(s,addr):
        dims=None;dt=None;lay=None
        for t,a,l in s.msgs(addr):
            if t==1:
                v=s.d[a]; rank=s.d[a+1]; off=a+4 if v==2 else a+8
                dims=[s.u(off+8*i,8) for i in range(rank)]
            if t==3:
                cls=s.d[a]&15; size=s.u(a+4,4); be=s.d[a+1]&1; dt=(cls,size,be)
            if t==8: lay=(a,l)
            if t==0xb: print('FILTER',addr)
        if lay is None or dims is None: return None
        a=lay[0]; v=s.d[a]; c=s.d[a+1]
        if c==1: off=s.u(a+2,8); sz=s.u(a+10,8)
        elif c==0: sz=s.u(a+2,2); off=a+4
        else: return ('chunked',dims,dt)
        if dt[0]!=1 or off==(1<<64)-1: return ('other',dims,dt)
        n=1
        for x in dims:n*=x
        fmt=('>' if dt[2] else '<')+str(n)+('d' if dt[1]==8 else 'f')
        return (dims,dt,struct.unpack(fmt,s.d[off:off+n*dt[1]]))
if __name__=='__main__':
    for n in ['h2o','o2','o3']:
        h=H5(f'/repo/pyrtlib/_lineshape/{n}_lineshape.nc')
        for g,a in h.links(h.root).items():
            print(n,g)
            for v,b in h.links(a).items():
                r=h.data(b)
                print('   ',v,r[:2] if r else r, r[2][:3] if r and len(r)>2 and isinstance(r[2],tuple) else '')
