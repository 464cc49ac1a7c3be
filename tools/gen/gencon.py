import sys; sys.path.insert(0,'/tmp/w')
from con import *; from fractions import Fraction as F
def num(t):
    f=F(t)
    return str(f.numerator) if f.denominator==1 else '(%d/%d)'%(f.numerator,f.denominator)
class S:
    """symbolic evaluation: i concrete, sym = set of symbolic indices; store: dict"""
    def __init__(s,sym,NR,NA): s.sym=sym; s.NR=NR; s.NA=NA; s.env={}; s.st={}
    def conc(s,x):  # concrete int or None
        k=x[0]
        if k=='num': return int(F(x[1]))
        if k=='id':
            if x[1]=='NR': return s.NR
            if x[1]=='NA': return s.NA
            if x[1] in s.sym: return None
            return s.env.get(x[1])
        if k in('+','-'):
            a=s.conc(x[1]); b=s.conc(x[2])
            if a is None or b is None: return None
            return a+b if k=='+' else a-b
        return None
    def pr(s,x,p=0):
        """lean string; precedence 0 lowest,1 add,2 mul,3 unary/atom"""
        k=x[0]
        def w(t,q): return t if q>=p else '('+t+')'
        if k=='num': return num(x[1])
        if k=='id':
            if x[1]=='sum': return 'total m'  if p<3 else 'total m'
            return x[1]
        if k=='idx':
            n=x[1]
            if n==('id','m'): return w('m %s'%s.ix(x[2]),3)
            if n==('id','r'): return w('r %s'%s.ix(x[2]),3)
            key=s.key(x); return w(s.st[key],0)
        if k=='neg': return w('-'+s.pr(x[1],3),1)
        if k=='+': return w(s.pr(x[1],1)+' + '+s.pr(x[2],2),1)
        if k=='-': return w(s.pr(x[1],1)+' - '+s.pr(x[2],2),1)
        if k=='*': return w(s.pr(x[1],2)+' * '+s.pr(x[2],3),2)
        if k=='/': return w(s.pr(x[1],2)+' / '+s.pr(x[2],3),2)
        if k=='call': return w(('total m' if x[2][0]==('id','sum') else '('+s.pr(x[2][0])+')')+' ^ '+{'SQUARE':'2','CUBE':'3','QUARTIC':'4'}[x[1][1]],3)
        if k=='?':
            c=x[1]
            if c[0] in('==','!='):
                a,b=s.conc(c[1]),s.conc(c[2])
                if a is not None and b is not None and c[1]!=('id','sum'):
                    return s.pr(x[2] if (a==b)==(c[0]=='==') else x[3],p)
                if c[1]==('id','sum'): cs='total m %s 0'%('≠' if c[0]=='!=' else '=')
                else:
                    if a is not None: a,b,c=b,a,(c[0],c[2],c[1])
                    cs='%s = %d'%(s.pr(c[1]),b)
                return '(if %s then %s else %s)'%(cs,s.pr(x[2]),s.pr(x[3]))
        raise Exception(x)
    def ix(s,x):
        c=s.conc(x)
        return str(c) if c is not None else s.pr(x)
    def key(s,x):
        if x[0]=='id': return x[1]
        return (s.key(x[1]), s.conc(x[2]) if s.conc(x[2]) is not None else x[2][1])
    def run(s,t):
        k=t[0]
        if k=='blk':
            for u in t[1]: s.run(u)
        elif k=='=': s.st[s.key(t[1])]=s.pr(t[2])
        elif k in('+=','-='): s.st[s.key(t[1])]=s.st[s.key(t[1])]+(' + ' if k=='+=' else ' - ')+s.pr(t[2],2)
        elif k=='/=': s.st[s.key(t[1])]='('+s.st[s.key(t[1])]+') / '+s.pr(t[2],3)
        elif k=='if':
            c=t[1]
            if c[1]==('id','sum'):
                s.run(t[3] if c[0]=='==' else t[2])   # nonzero branch
            elif c[1][0]=='call': pass   # fabs snap, handled separately
            else:
                a,b=s.conc(c[1]),s.conc(c[2]); assert a is not None and b is not None,c
                if a==b: s.run(t[2])
                elif t[3]: s.run(t[3])
        elif k=='for':
            v=t[2][1][1]
            for u in t[1]:
                if u[1]!=('id',v): s.run(u)
            lo=[u for u in t[1] if u[1]==('id',v)][0]; lo=s.conc(lo[2]); hi=s.conc(t[2][2])
            if v in s.sym: s.run(t[4])
            else:
                for q in range(lo,hi):
                    s.env[v]=q; s.run(t[4])
        elif k in('decl','ex'): pass
        else: raise Exception(t)
def gen(name,f,NR,NA,ns):
    o=getcon(f)
    def run(k,ix,sym):
        S_=S(sym,NR,NA)
        for st in parse_stmts(o[k][ix][1]): S_.run(st)
        return S_.st
    def flat(key):
        L=[]
        while isinstance(key,tuple): L.append(key[1]); key=key[0]
        return L[::-1]
    def lines(k,ix): 
        ln,b=o[k][ix]; return '%d-%d'%(ln,ln+b.count('\n'))
    out=[]; EX={}
    T=run('THIRD',0,()); R=[T[('r',i)] for i in range(NR)]
    ifs=any('if total m' in x for x in R)
    if ifs:
        body='![%s]'%(',\n    '.join(R))
    else:
        body='if total m ≠ 0 then ![%s] else fun _ => 0'%(',\n    '.join(R))
    EX['r']=R
    vec='Fin %d → ℝ'%NA; rv='Fin %d → ℝ'%NR
    out.append('/-- %s %s. -/\ndef %s.toR (m : %s) : %s :=\n  %s'%(f,lines('THIRD',0),ns,vec,rv,body))
    T=run('FIFTH',0,('j',)); T={flat(k)[0]:v for k,v in T.items() if isinstance(k,tuple)}; EX['dm']=[T[i] for i in range(NR)]
    out.append('/-- %s %s. -/\ndef %s.dm (m : %s) (j : Fin %d) : %s :=\n  if total m = 0 then fun _ => 0 else\n  ![%s]'%(f,lines('FIFTH',0),ns,vec,NA,rv,',\n    '.join(T[i] for i in range(NR))))
    T=run('SIXTH',0,('j','k')); T={flat(k)[0]:v for k,v in T.items() if isinstance(k,tuple)}; EX['d2m']=[T[i] for i in range(NR)]
    out.append('/-- %s %s. -/\ndef %s.d2m (m : %s) (j k : Fin %d) : %s :=\n  if total m = 0 then fun _ => 0 else\n  ![%s]'%(f,lines('SIXTH',0),ns,vec,NA,rv,',\n    '.join(T[i] for i in range(NR))))
    T=run('EIGHTH',0,('j','k','l')); T={flat(k)[0]:v for k,v in T.items() if isinstance(k,tuple)}; EX['d3m']=[T[i] for i in range(NR)]
    out.append('/-- %s %s. -/\ndef %s.d3m (m : %s) (j k l : Fin %d) : %s :=\n  if total m = 0 then fun _ => 0 else\n  ![%s]'%(f,lines('EIGHTH',0),ns,vec,NA,rv,',\n    '.join(T[i] for i in range(NR))))
    T=run('FOURTH',-1,()); EX['x']=[T[('x',i)] for i in range(NA)]
    out.append('/-- %s %s%s. -/\ndef %s.fromR (r : %s) : %s :=\n  ![%s]'%(f,lines('FOURTH',-1),' (without the replacement of values below `DBL_EPSILON` by 0)' if f=='olivine.c' else '',ns,rv,vec,',\n    '.join(T[('x',i)] for i in range(NA))))
    T=run('SEVENTH',-1,())
    EX['ifs']=ifs
    D=[[T[(('dr',i),j)] for j in range(NR)] for i in range(NA)]; EX['dr']=D
    out.append('/-- %s %s. -/\ndef %s.dr : Fin %d → %s :=\n  ![%s]'%(f,lines('SEVENTH',-1),ns,NA,rv,',\n    '.join('![%s]'%', '.join(r) for r in D)))
    # coefficients (by hand from numeric check)
    sys.path.insert(0,'/tmp/w')
    from conchk_lib import coeffs
    A,c=coeffs(f,NR,NA)
    return out,A,c,EX
