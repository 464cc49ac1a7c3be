"""Reads the macros of a phase with internal ordering and checks them numerically against symbolic derivatives."""
import re,sys,os,math,random,itertools
sys.path.insert(0,os.path.dirname(os.path.abspath(__file__)))
from cx import parse_expr
from fractions import Fraction
def load(f,start=0):
    src=open('/repo/sources/'+f,errors='replace').read()
    src=re.sub(r'/\*.*?\*/',lambda m:re.sub(r'[^\n]',' ',m.group(0)),src,flags=re.S)
    L=src.split('\n'); D={}; F={}; i=0
    while i<len(L):
        a=i; t=L[i]
        while t.rstrip().endswith('\\'): i+=1; t=t.rstrip()[:-1]+' '+L[i]
        m=re.match(r'#define\s+(\w+)(\([^)]*\))?\s+(.*)',t)
        if m:
            k=m.group(1)
            if m.group(2): F.setdefault(k,(m.group(2),m.group(3).strip(),a+1,i+1))
            elif k.startswith('fill'):
                if a+1<start: i+=1; continue
                F.setdefault(k,('',m.group(3).strip(),a+1,i+1))
            else: D.setdefault(k,(m.group(3).strip().rstrip(';').strip(),a+1,i+1))
        i+=1
    C={}
    for n,l in enumerate(L):
        m=re.match(r'(?:static\s+|const\s+)+double\s+(\w+)\s*=\s*([-\d.eE+*/() ]+);',l)
        if m: C[m.group(1)]=(m.group(2),n+1,n+1)
        for m in re.finditer(r'^(?:static\s+|const\s+)+double\s+(.*);',l):
            for part in m.group(1).split(','):
                q=re.match(r'\s*(\w+)\s*=\s*([-\d.eE+]+)\s*$',part)
                if q: C.setdefault(q.group(1),(q.group(2),n+1,n+1))
    if start:
        for m in re.finditer(r'^static (?:const )?double\s+(\w+)\s*=([^;]*);',src,flags=re.M):
            n=src.count('\n',0,m.start())+1; e=m.group(2)
            if '{' not in e: C[m.group(1)]=(' '.join(e.split()),n,n+e.count('\n'))
    return D,F,C,L
def ids(a):
    if a[0]=='id': yield a[1]
    for b in a[1:]:
        if isinstance(b,tuple): yield from ids(b)
        elif isinstance(b,list):
            for c in b: yield from ids(c)
POW={'SQUARE':2,'CUBE':3,'QUARTIC':4}
class Phase:
    def __init__(s,f,sites,consts_env=None,skip=(),redef=None,start=0):
        """sites: dict name -> C expression in r[],s[] (or other sites)"""
        s.f=f; s.D,s.F,s.C,s.L=load(f,start)
        if hasattr(s,'translate'): s.translate()
        for k,v in (redef or {}).items(): s.D[k]=v
        s.sites={k:parse_expr(v) for k,v in sites.items()}
        s.ast={}; s.env0=consts_env or {}
        need=[k for k in s.D if re.match(r'(D\d?GD[RSTP]|S$|H$|V$|G$)',k) and k not in skip]
        def go(k):
            if k in s.ast: return
            b=s.D[k][0] if k in s.D else s.C[k][0]
            s.ast[k]=s.fold(parse_expr(b))
            for i in ids(s.ast[k]):
                if i in s.sites or i in('t','p','r','s','R','log','sqrt','pow','exp',"DBL_EPSILON") or i in POW or i in s.env0: continue
                if i in s.D or i in s.C: go(i)
                else: raise Exception('unknown %s in %s'%(i,k))
        for k in need: go(k)
    def fold(s,a):
        """conditionals on names fixed by consts_env"""
        if a[0]=='?' and all(i in s.env0 for i in ids(a[1])):
            return s.fold(a[2] if s.ev(a[1],{}) else a[3])
        return tuple(s.fold(b) if isinstance(b,tuple) else [s.fold(c) for c in b] if isinstance(b,list) else b for b in a)
    def ev(s,a,e):
        k=a[0]
        if k=='num': return float(a[1])
        if k=='neg': return -s.ev(a[1],e)
        if k=='+': return s.ev(a[1],e)+s.ev(a[2],e)
        if k=='-': return s.ev(a[1],e)-s.ev(a[2],e)
        if k=='*': return s.ev(a[1],e)*s.ev(a[2],e)
        if k=='/': return s.ev(a[1],e)/s.ev(a[2],e)
        if k=='idx': return e[a[1][1]][int(a[2][1])]
        if k=='call':
            fn=a[1][1]; v=s.ev(a[2][0],e)
            if fn in POW: return v**POW[fn]
            if fn=='pow': return v**s.ev(a[2][1],e)
            return {'log':math.log,'sqrt':math.sqrt}[fn](v)
        if k=='id':
            i=a[1]
            if i=='R': return 8.3143
            if i=='DBL_EPSILON': return 2.0**-52
            if i in e: return e[i]
            if i in s.ast: return s.ev(s.ast[i],e)
            if i in s.env0: return s.env0[i]
        if k=='?': return s.ev(a[2],e) if s.ev(a[1],e) else s.ev(a[3],e)
        if k=='==': return s.ev(a[1],e)==s.ev(a[2],e)
        raise Exception(a)
    def textual(s,k):
        b=s.D[k][0]
        for _ in range(15):
            b2=re.sub(r'\b[A-Za-z_]\w*',lambda m:' '+s.D[m.group(0)][0]+' ' if m.group(0) in s.D and m.group(0) in s.ast else m.group(0),b)
            if b2==b: break
            b=b2
        return parse_expr(b)
    # forward derivative (value, dict)
    def jv(s,a,e,d):
        """value and directional derivative; d: derivatives of the base variables"""
        k=a[0]
        if k=='num': return float(a[1]),0.
        if k=='neg': v,w=s.jv(a[1],e,d); return -v,-w
        if k in '+-*/' and len(k)==1:
            x,dx=s.jv(a[1],e,d); y,dy=s.jv(a[2],e,d)
            return {'+':lambda:(x+y,dx+dy),'-':lambda:(x-y,dx-dy),'*':lambda:(x*y,dx*y+x*dy),'/':lambda:(x/y,(dx*y-x*dy)/y/y)}[k]()
        if k=='idx': n=a[1][1];i=int(a[2][1]); return e[n][i],d.get((n,i),0.)
        if k=='call':
            fn=a[1][1]; v,w=s.jv(a[2][0],e,d)
            if fn in POW: n=POW[fn]; return v**n,n*v**(n-1)*w
            if fn=='log': return math.log(v),w/v
            if fn=='sqrt': return math.sqrt(v),w/(2*math.sqrt(v)) if w else 0.
            if fn=='pow':
                n=s.ev(a[2][1],e); return v**n,n*v**(n-1)*w
        if k=='?': return s.jv(a[2],e,d) if s.ev(a[1],e) else s.jv(a[3],e,d)
        if k=='id':
            i=a[1]
            if i in('t','p'): return e[i],d.get((i,),0.)
            if i in s.sites: return s.jv(s.sites[i],e,d)
            if i in s.ast: return s.jv(s.ast[i],e,d)
            return s.ev(a,e),0.
        raise Exception(a)
    def vars(s):
        s.nr=int(re.match(r'\(?\s*(\d+)',s.D.get('NR',('0',))[0]).group(1)); s.ns=int(re.match(r'\(?\s*(\d+)',s.D['NS'][0]).group(1))
        return [('r',i) for i in range(s.nr)]+[('s',i) for i in range(s.ns)]+[('t',),('p',)]
    def name(s,vs):
        """macro for the derivative along the variables vs"""
        order={'r':0,'s':1,'t':2,'p':3}
        vs=sorted(vs,key=lambda v:(order[v[0]],)+v[1:])
        n=len(vs); R=[v for v in vs if v[0] in'rs']; T=[v[0] for v in vs if v[0] in 'tp']
        for fix in range(2):
            c=[]
            base='D'+(str(n) if n>1 else '')+'GD'
            core=''.join(v[0].upper()+str(v[1]) for v in R)
            tt=''
            if T:
                nt=T.count('t'); np_=T.count('p')
                tt=('DT'+(str(nt) if nt>1 else '') if nt else '')+('DP'+(str(np_) if np_>1 else '') if np_ else '')
            if not R: tt=tt[1:]
            c.append(base+core+tt)
            # other orders of R and S
            for perm in itertools.permutations(R): 
                c.append(base+''.join(v[0].upper()+str(v[1]) for v in perm)+tt)
                c.append(base+'D'.join(v[0].upper()+str(v[1]) for v in perm)+tt)
            for k in c:
                if k in s.D: return k
        return None
    def check(s,sample,tol=1e-7):
        bad=[]
        V=s.vars()
        random.seed(5)
        for _ in range(3):
            e=sample(); 
            for x in s.sites: 
                e[x]=s.ev(s.sites[x],e); 
                if e[x]<=0: print('site',x,e[x])
            for k in s.ast:
                if k in s.D:
                    a=s.ev(s.ast[k],e)
                    try: b=s.ev(s.textual(k),e)
                    except Exception as ex: continue
                    if abs(a-b)>1e-9*max(1,abs(a)): bad.append(('hygiene',k,a,b))
            for n in (0,1,2):
                for vs in itertools.combinations_with_replacement(V,n):
                    k='G' if n==0 else s.name(vs)
                    if k is None: bad.append(('missing',vs)); continue
                    for w in V:
                        kd=s.name(list(vs)+[w])
                        if kd is None: bad.append(('missing',tuple(vs)+(w,))); continue
                        val,dv=s.jv(s.ast[k],e,{w:1.})
                        m=s.ev(s.ast[kd],e)
                        if abs(dv-m)>tol*max(1,abs(m),abs(dv)): bad.append((k,w,kd,dv,m))
        seen=set(); out=[]
        for b in bad:
            if b[:3] not in seen: seen.add(b[:3]); out.append(b)
        return out
