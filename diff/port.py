"""A test, not a proof: the Rust code of /repo written a second time, in Python, from the source and independently of
the Lean model, and compared with the model on random inputs (command lines, ELF, bzImage and PE images, device trees,
boot parameters and configurators, load_cmdline). Usage: python3 diff/port.py SEED COUNT, after `lake build`."""
import random, json, subprocess, sys
U64=1<<64
class E(Exception): pass
class Panic(Exception): pass
# ---- cmdline, on UTF-8 bytes, transliterated
SEP=b" -- "
WS=set([9,10,11,12,13,32,0x85,0xa0,0x1680]+list(range(0x2000,0x200b))+[0x2028,0x2029,0x202f,0x205f,0x3000])
def trim(s):
    t=s.decode('utf8')
    i=0
    while i<len(t) and ord(t[i]) in WS: i+=1
    j=len(t)
    while j>i and ord(t[j-1]) in WS: j-=1
    return t[i:j].encode('utf8')
def chars(s): return s.decode('utf8')
def valid_char(c): return ' '<=c<='~'
def valid_str(s):
    if not all(valid_char(c) for c in chars(s)): raise E('CmdlineError.invalidAscii')
def is_quoted(s):
    if len(s)<2: return False
    c=chars(s)
    return c[0]=='"' and c[-1]=='"'
def contains_double_quotes(s):
    if len(s)<3: return False
    return any(c=='"' for c in chars(s)[1:][:len(s)-2])
def valid_key(s):
    if not all(valid_char(c) for c in chars(s)): raise E('CmdlineError.invalidAscii')
    elif b' ' in s: raise E('CmdlineError.hasSpace')
    elif b'=' in s: raise E('CmdlineError.hasEquals')
def valid_value(s):
    if not all(valid_char(c) for c in chars(s)): raise E('CmdlineError.invalidAscii')
    elif contains_double_quotes(s): raise E('CmdlineError.invalidQuote')
    elif b' ' in s and not is_quoted(s): raise E('CmdlineError.noQuoteSpace')
def cadd(a,b,e):
    if a+b>=U64: raise E(e)
    return a+b
class Cmd:
    def __init__(self,cap):
        if cap==0: raise E('CmdlineError.invalidCapacity')
        self.boot=b'';self.init=b'';self.cap=cap
    def insert(self,k,v):
        valid_key(k);valid_value(v)
        self.insert_str(k+b'='+v)
    def insert_multiple(self,k,vs):
        valid_key(k)
        if not vs: raise E('CmdlineError.missingVal '+repr(list(k)))
        out=[]
        for v in vs:
            valid_value(v);out.append(v)
        self.insert_str(k+b'='+b','.join(out))
    def size(self):
        n=len(self.boot)+1
        if self.init: n+=len(SEP)+len(self.init)
        return n
    def insert_str(self,slug):
        s=trim(slug);valid_str(s)
        n=self.size()
        if self.boot: n=cadd(n,1,'CmdlineError.tooLarge')
        n=cadd(n,len(s),'CmdlineError.tooLarge')
        if n>self.cap: raise E('CmdlineError.tooLarge')
        if self.boot: self.boot+=b' '
        self.boot+=s
    def insert_init_args(self,slug):
        s=trim(slug);valid_str(s)
        n=self.size()
        n=cadd(n,len(SEP) if not self.init else 1,'CmdlineError.tooLarge')
        n=cadd(n,len(s),'CmdlineError.tooLarge')
        if n>self.cap: raise E('CmdlineError.tooLarge')
        if self.init: self.init+=b' '
        self.init+=s
    def cstr(self,b):
        if 0 in b: raise E('CmdlineError.nullTerminator')
        return b
    def as_cstring(self):
        if not self.boot and not self.init: return b''
        elif not self.boot: raise E('CmdlineError.noBootArgsInserted')
        elif not self.init: return self.cstr(self.boot)
        else: return self.cstr(self.boot+SEP+self.init)
    def virtio(self,size,base,irq,id):
        if size==0: raise E('CmdlineError.mmioSize')
        def st(n):
            K=1<<10;M=K<<10;G=M<<10
            if n%G==0: return f"{n//G}G"
            if n%M==0: return f"{n//M}M"
            if n%K==0: return f"{n//K}K"
            return str(n)
        d=f"virtio_mmio.device={st(size)}@0x{base:x}:{irq}"
        if id is not None: d+=f":{id}"
        self.insert_str(d.encode())
    @staticmethod
    def try_from(raw,cap):
        if cap==0: raise E('CmdlineError.invalidCapacity')
        # match_indices: non overlapping
        i=0; found=None
        while True:
            p=raw.find(SEP,i)
            if p<0: break
            if raw[:p].count(b'"')%2==0: found=p;break
            i=p+len(SEP)
        if found is None: b,n=raw,b''
        else: b,n=raw[:found],raw[found+len(SEP):]
        b=trim(b);n=trim(n)
        size=cadd(len(b),1,'CmdlineError.tooLarge')
        if n: size=cadd(cadd(size,len(SEP),'CmdlineError.tooLarge'),len(n),'CmdlineError.tooLarge')
        if size>cap: raise E('CmdlineError.invalidCapacity')
        c=Cmd(cap);c.boot=b;c.init=n
        return c
def shS(b): return '['+', '.join(str(ord(c)) for c in b.decode('utf8'))+']'
def shB(b): return '['+', '.join(str(x) for x in b)+']'
def shC(c): return shS(c.boot)+shS(c.init)+str(c.cap)
def run(f,sh):
    try: return 'ok '+sh(f())
    except E as e: return 'err '+e.args[0]
    except Panic: return 'panic'
def bs(l): return ''.join(map(chr,l)).encode('utf8')
def docmd(j):
    try: c=Cmd.try_from(bs(j['raw']),j['cap']) if j['from']=='raw' else Cmd(j['cap'])
    except E as e: return 'err '+e.args[0]
    out='ok '+shC(c)
    for o in j['ops']:
        def f():
            if o['op']=='insert': c.insert(bs(o['k']),bs(o['v']))
            elif o['op']=='multi': c.insert_multiple(bs(o['k']),[bs(v['s']) for v in o['vs']])
            elif o['op']=='str': c.insert_str(bs(o['s']))
            elif o['op']=='init': c.insert_init_args(bs(o['s']))
            elif o['op']=='virtio': c.virtio(o['size'],o['base'],o['irq'],o.get('id'))
        r=run(f,lambda _:'')
        out+=' | '+r+shC(c)
    return out+' | '+run(c.as_cstring,shB)
# ---- memory
class Mem:
    def __init__(self,regions,emptyOk):
        self.r=sorted([(r['start'],r['len']) for r in regions]); self.order=[(r['start'],r['len']) for r in regions]
        self.d={}; self.emptyOk=emptyOk
        for s,l in self.r:
            for x in range(s,s+l): self.d[x]=(x*7+3)&255
    def last_addr(self): return max([s+l-1 for s,l in self.r],default=0)
    def region(self,a):
        for s,l in self.r:
            if s<=a<s+l: return (s,l)
    def checked_offset(self,b,n):
        if b+n>=U64: return None
        return b+n if self.region(b+n) else None
    def xfer(self,a,bytes_):
        """walk region by region; returns bytes done, ok"""
        if len(bytes_)==0:
            return 0,bool(self.emptyOk or self.region(a))
        done=0
        while done<len(bytes_):
            if a+done>=U64: break
            r=self.region(a+done)
            if not r: break
            n=min(len(bytes_)-done, r[0]+r[1]-(a+done))
            for i in range(n): self.d[a+done+i]=bytes_[done+i]
            done+=n
        return done,done==len(bytes_)
    def write_slice(self,b,a): return self.xfer(a,b)[1]
    def dump(self):
        o=''
        for s,l in self.order:
            o+=''.join(f"{self.d[x]}," for x in range(s,s+l))+';'
        return o
class Rd:
    def __init__(self,img,pos): self.b=bytes(img);self.p=pos
    def seek(self,p): self.p=p
    def end(self): self.p=len(self.b); return self.p
    def exact(self,n,e):
        b=self.b[self.p:self.p+n]
        if len(b)<n: raise E(e)
        self.p+=n; return b
    def into(self,m,a,n,e):
        avail=self.b[self.p:self.p+n]
        if n==0:
            if not (m.emptyOk or m.region(a)): raise E(e)
            return
        # transferable prefix
        done,ok=m.xfer(a,avail) if avail else (0,False)
        self.p+=done
        if not(len(avail)==n and ok): raise E(e)
def le(b,o,n): return int.from_bytes(b[o:o+n],'little')
def el(x): return f'LoadError.elf (ElfError.{x})'
def bz(x): return f'LoadError.bz (BzError.{x})'
def pe(x): return f'LoadError.pe (PeError.{x})'
MO='LoadError.memoryOverflow'
def align_up(a,al):
    if al==0 or al&(al-1): raise E(el('align'))
    m=al-1
    if a&m==0: return a
    r=(a|m)+1
    if r>=U64: raise Panic()
    return r
def note(off,fsz,f):
    f.seek(off)
    rs=0;ns=ds=0
    while rs<fsz:
        h=f.exact(12,el('readNoteHeader'))
        ns,ds,ty=le(h,0,4),le(h,4,4),le(h,8,4)
        if ty==18 and ns==4:
            if f.exact(4,el('readNoteHeader'))==b'Xen\0': break
        na=align_up(ns,4);da=align_up(ds,4)
        if na>0xffffffff or da>0xffffffff: raise E(el('overflow'))
        rs=cadd(cadd(cadd(rs,12,el('overflow')),na,el('overflow')),da,el('overflow'))
        if off+rs>=U64: raise Panic()
        f.seek(off+rs)
    if rs>=fsz: return 'notPresent'
    d=align_up(ns,4)-4
    f.seek(f.p+d)
    if ds<4: raise E(el('invalidPvhNote'))
    return f"present {le(f.exact(4,el('readNoteHeader')),0,4)}"
def elf(m,koff,f,high):
    f.seek(0)
    h=f.exact(64,el('readElfHeader'))
    if h[:4]!=b'\x7fELF': raise E(el('invalidElfMagicNumber'))
    if h[5]!=1: raise E(el('bigEndianElfOnLittle'))
    if le(h,54,2)!=56: raise E(el('invalidProgramHeaderSize'))
    if le(h,32,8)<64: raise E(el('invalidProgramHeaderOffset'))
    entry=le(h,24,8)
    if high is not None and entry<high: raise E(el('invalidEntryAddress'))
    kl=entry if koff is None else cadd(koff,entry,el('overflow'))
    f.seek(le(h,32,8))
    ph=[f.exact(56,el('readProgramHeader')) for _ in range(le(h,56,2))]
    kend=0;cap='ignored'
    for p in ph:
        ty,off,pa,fsz,msz=le(p,0,4),le(p,8,8),le(p,24,8),le(p,32,8),le(p,40,8)
        if ty!=1 or fsz==0:
            if ty==4:
                cap='ignored' if koff is not None else note(off,fsz,f)
            continue
        f.seek(off)
        a=pa if koff is None else cadd(koff,pa,el('invalidProgramHeaderAddress'))
        f.into(m,a,fsz,el('readKernelImage'))
        e=cadd(a,msz,MO)
        kend=max(kend,e)
    return f"{kl} {kend} none {cap}"
def bzl(m,koff,f,high):
    size=f.end(); f.seek(0x1f1)
    b=f.b[0x1f1:0x1f1+123]; f.p+=len(b); h=bytearray(b+bytes(123-len(b)))
    if le(h,0x202-0x1f1,4)!=0x53726448: raise E(bz('invalidBzImage'))
    if le(h,0x206-0x1f1,2)<0x200 or h[0x211-0x1f1]&1==0: raise E(bz('invalidBzImage'))
    ss=h[0] or 4
    ss=(ss+1)*512
    if size<ss: raise E(bz('underflow'))
    ks=size-ss
    c32=le(h,0x214-0x1f1,4)
    if high is not None and c32<high: raise E('LoadError.invalidKernelStartAddress')
    a=koff if koff is not None else c32
    h[0x214-0x1f1:0x218-0x1f1]=(a&0xffffffff).to_bytes(4,'little')
    f.seek(ss); f.into(m,a,ks,bz('readBzImageCompressedKernel'))
    e=cadd(a,ks,MO)
    return f"{a} {e} (some {shB(h)}) ignored"
def pel(arch,m,koff,f,high):
    size=f.end(); f.seek(0); h=f.exact(64,pe('readImageHeader'))
    if le(h,56,4)!=(0x644d5241 if arch=='arm' else 0x05435352): raise E(pe('invalidImageMagicNumber'))
    t=le(h,8,8)
    if arch=='arm' and le(h,16,8)==0: t=0x80000
    if koff is not None and koff%0x200000: raise E(pe('invalidBaseAddrAlignment'))
    a=cadd(koff or 0,t,pe('invalidImage'))
    f.seek(0); f.into(m,a,size,pe('readKernelImage'))
    e=cadd(a,size,MO)
    return f"{a} {e} none ignored"
def dtb(m,addr,f):
    n=f.end()
    if n>0x200000: raise E(pe('dtbTooBig'))
    f.seek(0); f.into(m,addr,n,pe('readDtbImage')); return ''
def doload(j):
    m=Mem(j['regions'],j['emptyOk']); f=Rd(j['img'],j['pos'])
    k=j['kind']; a=(m,j.get('koff'),f,j.get('high'))
    g={'elf':lambda:elf(*a),'bz':lambda:bzl(*a),'pearm':lambda:pel('arm',*a),'perv':lambda:pel('rv',*a),'dtb':lambda:dtb(m,j['addr'],f)}[k]
    r=run(g,lambda x:x)
    return r+' pos '+(str(f.p) if r.startswith('ok') else '')+' mem '+m.dump()
# ---- params
class P:
    def __init__(s,h,a): s.h=h;s.ha=a;s.s=s.ss=s.m=s.ms=None
    def add(s,el_,st,acc,ls):
        # returns (result, acc, ls)
        if ls is None: ls=st
        if ls is None: return 'err ListError.missingStartAddress',acc,ls
        if ls+len(acc)>=U64: return 'err ListError.overflow',acc,ls
        es=st if st is not None else ls+len(acc)
        if es<ls: return 'err ListError.invalidAddress',acc,ls
        off=es-ls
        if off+len(el_)>=U64: return 'panic',acc,ls
        end=off+len(el_)
        if max(end,len(acc))>=1<<63: return 'panic',acc,ls
        acc=acc+bytes(max(0,end-len(acc)))
        return 'ok %d'%es,acc[:off]+el_+acc[end:],ls
def so(x,f=str): return 'none' if x is None else '(some %s)'%f(x)
def doparams(j):
    p=P(bytes(j['hdr']),j['haddr']);out=''
    for o in j['ops']:
        r='ok 0'
        if o['op']=='ss': p.s=b''.join(bytes(e['b']) for e in o['es']);p.ss=o['a']
        elif o['op']=='sm': p.m=b''.join(bytes(e['b']) for e in o['es']);p.ms=o['a']
        elif o['op']=='as': r,p.s,p.ss=p.add(bytes(o['b']),o.get('a'),p.s if p.s is not None else b'',p.ss)
        else: r,p.m,p.ms=p.add(bytes(o['b']),o.get('a'),p.m if p.m is not None else b'',p.ms)
        out+=f"{r} {so(p.s,shB)} {so(p.ss)} {so(p.m,shB)} {so(p.ms)} | "
    def lin(m,e1,e2):
        if m.checked_offset(p.ha,len(p.h)) is None: raise E(e1)
        if not m.write_slice(p.h,p.ha): raise E(e2)
        return ''
    def pvh(m):
        if p.s is None: raise E('PvhError.memmapTableMissing')
        if p.ss is None: raise E('PvhError.memmapTableAddressMissing')
        if m.checked_offset(p.ss,len(p.s)) is None: raise E('PvhError.memmapTablePastRamEnd')
        if not m.write_slice(p.s,p.ss): raise E('PvhError.memmapTableSetup')
        lin(m,'PvhError.startInfoPastRamEnd','PvhError.startInfoSetup')
        if p.m is not None:
            if p.ms is None: raise E('PvhError.modulesAddressMissing')
            if not m.write_slice(p.m,p.ms): raise E('PvhError.modulesSetup')
        return ''
    for g in (lambda m:lin(m,'LinuxError.zeroPagePastRamEnd','LinuxError.zeroPageSetup'),pvh,lambda m:lin(m,'FdtError.fdtPastRamEnd','FdtError.writeFdtToMemory')):
        m=Mem(j['regions'],j['emptyOk'])
        r=run(lambda:g(m),lambda x:x)
        out+=r+m.dump()
    return out
def dolc(j):
    try: c=Cmd.try_from(bs(j['raw']),1000)
    except E: return 'bad'
    m=Mem(j['regions'],j['emptyOk'])
    def g():
        try: b=c.as_cstring()+b'\0'
        except E: raise E('CmdlineLoadError.invalidCommandLine')
        e=j['addr']+len(b)-1
        if e>=U64: raise E('CmdlineLoadError.commandLineOverflow')
        if e>m.last_addr(): raise E('CmdlineLoadError.commandLineOverflow')
        if not m.write_slice(b,j['addr']): raise E('CmdlineLoadError.commandLineCopy')
        return ''
    r=run(g,lambda x:x)
    return r+m.dump()
# ---- generators
R=random.Random(int(sys.argv[1]) if len(sys.argv)>1 else 1)
AL=[97,98,61,34,34,32,32,45,45,44,9,126,127,233,0x3000,0x85,0,0x1f600,10]
def rs(n=8,al=AL): return [R.choice(al) for _ in range(R.randrange(n))]
CL=[97,98,32,34,61,45]
def rstr(n=8):
    t=R.random()
    if t<.5: return rs(n,CL)
    if t<.8: return rs(n,[97,98,46,34])
    return rs(n)
def gcmd():
    j=dict(t='cmd',cap=R.choice([0,1,2,5,10,20,40,60,1<<63,U64-1]),ops=[])
    if R.random()<.6:
        j['from']='raw'
        raw=[]
        for _ in range(R.randrange(6)): raw+=R.choice([[32,45,45,32],[32,45,45],[45,45,32],[34],[97],[32],[9],rs(4)])
        j['raw']=raw
    else: j['from']='new'
    for _ in range(R.randrange(6)):
        k=R.randrange(5)
        if k==0: o=dict(op='insert',k=rstr(4),v=rstr(6))
        elif k==1: o=dict(op='multi',k=rstr(4),vs=[dict(s=rstr(5)) for _ in range(R.randrange(3))])
        elif k==2: o=dict(op='str',s=rstr())
        elif k==3: o=dict(op='init',s=rstr())
        else:
            o=dict(op='virtio',size=R.choice([0,1,1023,1024,1<<20,3<<30,U64-1,1<<63]),base=R.randrange(U64),irq=R.randrange(1<<32))
            if R.random()<.5:o['id']=R.randrange(100)
        j['ops'].append(o)
    return j
def gmem(j):
    rs_=[];p=R.choice([0,0,16,64])
    for _ in range(R.randrange(1,4)):
        l=R.randrange(1,80); rs_.append(dict(start=p,len=l)); p+=l+R.choice([0,0,1,20])
    if R.random()<.1: rs_.append(dict(start=U64-1-30,len=30))
    j['regions']=rs_; j['emptyOk']=R.randrange(2)
    return j
def addr(): return R.choice([0,1,16,R.randrange(200),R.randrange(200),U64-1,U64-20,U64-31,1<<63,0x200000])
def gelf():
    n=R.randrange(4)
    phs=b'';body=b'';base=64+56*n
    for _ in range(n):
        ty=R.choice([1,1,4,4,2])
        if ty==4:
            data=b''
            for _ in range(R.randrange(4)):
                nt=R.choice([18,18,1]); ns=R.choice([4,4,0,3,5,8,0xfffffffd if R.random()<.1 else 4]); ds=R.choice([4,8,0,3,1,0xffffffff if R.random()<.1 else 4])
                nm=(b'Xen\0' if R.random()<.7 else b'GNU\0')+bytes(8)
                nl=min(ns,8);dl=min(ds,8)
                data+=ns.to_bytes(4,'little')+ds.to_bytes(4,'little')+nt.to_bytes(4,'little')+nm[:(nl+3)//4*4]+bytes(R.randrange(256) for _ in range((dl+3)//4*4))
        else: data=bytes(R.randrange(256) for _ in range(R.randrange(40)))
        off=base+len(body); body+=data
        fsz=len(data)
        if R.random()<.15: fsz=R.choice([0,1,fsz+1,max(0,fsz-1),1<<63,U64-1]) if ty==4 else R.choice([0,1,fsz+1,max(0,fsz-3),300])
        if R.random()<.05: off=R.choice([U64-1,U64-8,off+1,0])
        phs+=ty.to_bytes(4,'little')+bytes(4)+off.to_bytes(8,'little')+bytes(8)+addr().to_bytes(8,'little') if R.random()<.5 else ty.to_bytes(4,'little')+bytes(4)+off.to_bytes(8,'little')+bytes(8)+R.randrange(60).to_bytes(8,'little')
        phs+=fsz.to_bytes(8,'little')+(fsz+R.randrange(5) if R.random()<.9 else U64-1).__mod__(U64).to_bytes(8,'little')+bytes(8)
    h=bytearray(64); h[:4]=b'\x7fELF';h[4]=2;h[5]=1
    h[24:32]=R.randrange(100).to_bytes(8,'little'); h[32:40]=(64).to_bytes(8,'little'); h[54:56]=(56).to_bytes(2,'little'); h[56:58]=n.to_bytes(2,'little')
    if R.random()<.1: h[R.choice([0,1,2,3,5,32,54,55,56,24,31])]^=R.randrange(1,256)
    img=bytes(h)+phs+body
    if R.random()<.15: img=img[:R.randrange(len(img)+1)]
    return list(img)
def gbz():
    h=bytearray(0x1f1+123); h[0x1f1]=R.choice([1,1,1,0,2]); h[0x202:0x206]=b'HdrS'; h[0x206:0x208]=R.choice([0x200,0x20f,0x1ff,0x10ff]).to_bytes(2,'little'); h[0x211]=R.choice([1,1,1,0x81,0x80,2]); h[0x214:0x218]=R.choice([0,16,64,0xffffffff,100]).to_bytes(4,'little')
    if R.random()<.1: h[R.randrange(0x1f1,len(h))]^=R.randrange(256)
    img=bytes(h)+bytes(R.randrange(256) for _ in range(1024-len(h)+R.choice([0,1,5,30,-3])))
    if R.random()<.1: img=img[:R.randrange(len(img))]
    return list(img)
def gpe(arch):
    h=bytearray(64); h[8:16]=R.choice([0,16,0x80000,U64-1,40]).to_bytes(8,'little');h[16:24]=R.choice([0,1,1<<40,100]).to_bytes(8,'little')
    h[56:60]=(0x644d5241 if arch=='pearm' else 0x05435352).to_bytes(4,'little')
    if R.random()<.1: h[R.randrange(56,60)]^=1<<R.randrange(8)
    img=bytes(h)+bytes(R.randrange(256) for _ in range(R.randrange(20)))
    if R.random()<.1: img=img[:R.randrange(len(img))]
    return list(img)
def gload():
    j=gmem(dict(t='load',pos=R.randrange(5)))
    if R.random()<.3: j['koff']=addr() if R.random()<.7 else 0x200000*R.randrange(3)
    if R.random()<.2: j['high']=R.randrange(120)
    k=R.choice(['elf','elf','elf','bz','pearm','perv','dtb']);j['kind']=k
    if k=='elf': j['img']=gelf()
    elif k=='bz': j['img']=gbz()
    elif k=='dtb': j['img']=[R.randrange(256) for _ in range(R.randrange(40))]; j['addr']=addr()
    else:
        j['img']=gpe(k)
        if R.random()<.5: j['regions'].append(dict(start=0x80000,len=R.choice([64,84,100])))
        if R.random()<.5: j['regions'].append(dict(start=0x200000,len=R.choice([64,84,130])))
    return j
def gparams():
    j=gmem(dict(t='params',hdr=[R.randrange(256) for _ in range(R.randrange(6))],haddr=addr(),ops=[]))
    for _ in range(R.randrange(6)):
        k=R.choice(['ss','sm','as','as','am','am'])
        if k in('ss','sm'): o=dict(op=k,es=[dict(b=[R.randrange(256)]*3) for _ in range(R.randrange(3))],a=addr())
        else:
            o=dict(op=k,b=[R.randrange(256) for _ in range(R.randrange(5))])
            if R.random()<.6: o['a']=R.choice([R.randrange(100),R.randrange(100),addr() if R.random()<.05 else R.randrange(60)])
        # keep lists small
        j['ops'].append(o)
    return j
def glc(): 
    j=gmem(dict(t='lc',raw=rs(20,[97,32,45,34,98]) if R.random()<.8 else rs(8),addr=addr())); return j
F={'cmd':docmd,'load':doload,'params':doparams,'lc':dolc}
G=[gcmd,gcmd,gload,gload,gload,gparams,glc]
N=int(sys.argv[2]) if len(sys.argv)>2 else 200
cases=[]
while len(cases)<N:
    j=R.choice(G)()
    try: e=F[j['t']](j)
    except (MemoryError,OverflowError): continue
    if len(e)>200000: continue
    cases.append((j,e))
inp='\n'.join(json.dumps(j) for j,_ in cases)+'\n'
import os, shutil, tempfile
here=os.path.dirname(os.path.abspath(__file__))
drv=os.path.join(tempfile.mkdtemp(),'Drv.lean'); shutil.copy(os.path.join(here,'Drv.lean.txt'),drv)
out=subprocess.run(['lake','env','lean','--run',drv],input=inp,capture_output=True,text=True,cwd=os.path.join(here,'..','lean'))
if out.stderr: print(out.stderr[:2000])
L=out.stdout.split('\n')
print(len(L)-1,len(cases))
import re
bad=0
from collections import Counter
C=Counter()
for (j,e),l in zip(cases,L):
    l2=re.sub(r"CmdlineError.missingVal \[([^\]]*)\]",lambda m:'CmdlineError.missingVal '+str([ord(eval(x.strip())) if x.strip()!="'\"'" else 34 for x in re.findall(r"'(?:\\.[^']*|[^'])'",m.group(1))]),l)
    C[(j['t'],j.get('kind'),e.split(' mem')[0].split(' pos')[0][:40] if j['t']=='load' and not e.startswith('ok') else e[:3])]+=1
    if l2!=e:
        bad+=1
        if bad<4: print(json.dumps(j)[:1500]);print('PY  ',e[:1500]);print('LEAN',l2[:1500])
print('bad',bad)
for k,v in sorted(C.items(),key=str): print(k,v)
