"""Generates lean/Verif/Thermo/Minerals*.lean from the macros of the closed-form solution phases in /repo/sources."""
import re,sys,os,math,random,itertools
sys.path.insert(0,os.path.dirname(os.path.abspath(__file__)))
from cx import parse_expr,tokenize
def load(f):
    src=open('/repo/sources/'+f,errors='replace').read()
    lines=src.split('\n'); D={}; i=0
    src2=re.sub(r'/\*.*?\*/',lambda m:re.sub(r'[^\n]',' ',m.group(0)),src,flags=re.S)
    L=src2.split('\n')
    while i<len(L):
        a=i; t=L[i]
        while t.rstrip().endswith('\\'): i+=1; t=t.rstrip()[:-1]+' '+L[i]
        m=re.match(r'#define\s+(\w+)(\([^)]*\))?\s+(.*)',t)
        if m and m.group(1) not in D and not m.group(2): D[m.group(1)]=(m.group(3).strip().rstrip(';').strip(),a+1,i+1)
        i+=1
    C={}
    for n,l in enumerate(L):
        m=re.match(r'static\s+double\s+(\w+)\s*=\s*([-\d.eE+]+);',l)
        if m: C[m.group(1)]=(m.group(2),n+1,n+1)
    sites={}
    for n,l in enumerate(L):
        m=re.match(r'\s*double\s+(x\w+)\s*=\s*(.*);',l)
        if m:
            k=re.sub(r'\s+','',m.group(2))
            if 'DBL_EPSILON' in k or f=='hornblende.c':
                sites.setdefault(m.group(1),[]).append((k,n+1))
    for s in sites.values(): assert len({k for k,_ in s})==1,s
    return D,C,sites
def num(v):
    from fractions import Fraction
    fr=Fraction(v)
    return str(fr.numerator) if fr.denominator==1 else '(%d / %d)'%(fr.numerator,fr.denominator)
PREC={'+':(65,65,66),'-':(65,65,66),'*':(70,70,71),'/':(70,70,71)}
class Ph:
    def __init__(s,name,f,dep,fx,extra=None,logs=None,note=''):
        s.name=name;s.f=f;s.dep=dep;s.fx=fx;s.extra=extra or [];s.logs=logs or [];s.note=note
        s.D,s.C,s.sites=load(f)
        s.nr=int(s.D['NR'][0]); s.na=int(s.D['NA'][0])
        s.sn=list(s.sites); s.consts={}
        s.ast={}
        for k,(b,a,e) in s.D.items():
            if re.match(r'(D\d?GD|S$|H$|V$|G$|[dW]?W[HSVG]\d|W[A-Z]|DGR|G0|GX|GY|B[HSG]\d)',k) or k in('WHANPH',):
                s.ast[k]=parse_expr(b)
        for k,(b,a,e) in s.C.items(): s.ast[k]=parse_expr(b)
        if 'D3GDR1R1R0' in s.ast: s.ast['D3GDR0R1R1']=s.ast['D3GDR1R1R0']; s.D['D3GDR0R1R1']=s.D['D3GDR1R1R0']
        if 'DGDT' in s.ast: del s.ast['DGDT']
        # constants: no dependence on t p r x
        s.dep_={}
        for k in s.ast: s.isdep(k)
    def ids(s,a):
        if a[0]=='id': yield a[1]
        for b in a[1:]:
            if isinstance(b,tuple): yield from s.ids(b)
            elif isinstance(b,list):
                for c in b: yield from s.ids(c)
    def isdep(s,k):
        if k in s.dep_: return s.dep_[k]
        s.dep_[k]=None
        r=False
        for i in s.ids(s.ast[k]):
            if i in('t','p','x','r') or i in s.sn: r=True
            elif i in s.ast and s.isdep(i): r=True
        s.dep_[k]=r
        return r
    def nm(s,i): return {'xor':"xOr"}.get(i,i)
    def args(s): return 't p '+' '.join('r%d'%i for i in range(s.nr))+' '+' '.join(s.nm(x) for x in s.sn)
    def pr(s,a,p=0):
        k=a[0]
        if k=='num': return num(a[1])
        if k=='neg':
            q='-'+s.pr(a[1],75); return '('+q+')' if p>=75 or True and p>65 else q
        if k in PREC:
            P,l,r=PREC[k]; q=s.pr(a[1],l)+' '+k+' '+s.pr(a[2],r)
            return '('+q+')' if p>P else q
        if k=='idx':
            assert a[1][1] in 'rx'; return 'r'+a[2][1]
        if k=='call':
            fn=a[1][1]
            if fn in('SQUARE','CUBE','QUARTIC'): 
                q=s.pr(a[2][0],76)+' ^ '+{'SQUARE':'2','CUBE':'3','QUARTIC':'4'}[fn]
                return '('+q+')' if p>75 else q
            q={'log':'Real.log','LOG':'LOG'}[fn]+' '+s.pr(a[2][0],1024)
            return '('+q+')' if p>=1024 else q
        if k=='id':
            i=a[1]
            if i in s.ast:
                if s.dep_[i]:
                    q='%s %s'%(i,s.args()); return '('+q+')'
                return i
            if i in s.sn: return s.nm(i)
            if i in('t','p','R'): return i
            raise Exception(i)
        raise Exception(a)
    def raw(s,x):
        k=s.sites[x][0][0]
        if '?' in k: 
            m=re.match(r'\((.*)>DBL_EPSILON\)\?(.*):DBL_EPSILON$',k); assert m.group(1)==m.group(2) or m.group(1)=='('+m.group(2)+')' or '('+m.group(1)+')'==m.group(2),k
            k=m.group(1)
        return parse_expr(k)
    def order(s):
        done=[];
        def go(k):
            if k in done: return
            for i in s.ids(s.ast[k]):
                if i in s.ast: go(i)
            done.append(k)
        for k in s.ast: go(k)
        return done
    # evaluation for textual check
    def ev(s,a,e):
        k=a[0]
        if k=='num': return float(a[1])
        if k=='neg': return -s.ev(a[1],e)
        if k=='+': return s.ev(a[1],e)+s.ev(a[2],e)
        if k=='-': return s.ev(a[1],e)-s.ev(a[2],e)
        if k=='*': return s.ev(a[1],e)*s.ev(a[2],e)
        if k=='/': return s.ev(a[1],e)/s.ev(a[2],e)
        if k=='idx': return e['r'][int(a[2][1])]
        if k=='call':
            v=s.ev(a[2][0],e); return {'log':math.log,'LOG':math.log,'SQUARE':lambda z:z*z,'CUBE':lambda z:z**3}[a[1][1]](v)
        if k=='id':
            if a[1]=='R': return 8.3143
            if a[1] in s.ast: return s.ev(s.ast[a[1]],e)
            return e[a[1]]
    def textual(s,k):
        b=s.D[k][0] if k in s.D else s.C[k][0]
        for _ in range(12):
            b2=re.sub(r'\b[A-Za-z_]\w*',lambda m:' '+s.D[m.group(0)][0]+' ' if m.group(0) in s.D and m.group(0) in s.ast else m.group(0),b)
            if b2==b: break
            b=b2
        return parse_expr(b)
    def check(s):
        random.seed(3)
        for k in s.ast:
            for _ in range(3):
                r=[random.uniform(.1,.3) for _ in range(s.nr)]
                e=dict(r=r,t=random.uniform(900,1500),p=random.uniform(1,9000))
                for x in s.sn: e[x]=s.ev(s.raw(x),e)
                a=s.ev(s.ast[k],e); b=s.ev(s.textual(k),e)
                assert abs(a-b)<=1e-9*max(1,abs(a)),(s.f,k,a,b)
    def M(s,*ix):  # macro by sorted r-indices + suffix
        pass
    def gname(s,ri,suf=''):
        n=len(ri)+ (0 if not suf else sum(int(c) if c.isdigit() else 0 for c in '') )
        ri=sorted(ri); R=''.join('R%d'%i for i in ri)
        return R
    def lean(s):
        s.check()
        nr=s.nr; o=[]; w=o.append; f='/repo/sources/'+s.f
        A=s.args()
        w('namespace %s\n'%s.name)
        for k in s.order():
            b=s.D[k] if k in s.D else s.C[k]
            loc='%s %s'%(s.f,b[1] if b[1]==b[2] else '%d-%d'%(b[1],b[2]))
            if k in ('V',) and not s.dep_[k] or k in('S','H','V','G') or k.startswith('D') and 'G' in k and k!='DGR' or s.dep_[k]:
                s.dep_[k]=True
                body=s.pr(s.ast[k])
                w('/-- `%s`, %s. -/'%(k,loc)); w('def %s (%s : ℝ) : ℝ :=\n  %s\n'%(k,A,wrap(body)))
            else:
                w('/-- `%s`, %s. -/'%(k,loc)); w('def %s : ℝ := %s\n'%(k,s.pr(s.ast[k])))
        ap=lambda k:'%s t p %s %s'%(k,' '.join('(r %d)'%i for i in range(nr)),' '.join('(x %d)'%i for i in range(len(s.sn))))
        def d(ri,suf=''):
            ri=sorted(ri); n=len(ri)+{'':0,'DT':1,'DP':1,'DT2':2,'DTDP':2,'DP2':2}[suf]
            k='D'+('%d'%n if n>1 else '')+'GD'+(''.join('R%d'%i for i in ri)+suf if ri else suf[1:])
            return k
        vec=lambda g:'!['+', '.join(g(i) for i in range(nr))+']'
        neg=lambda k:'-('+ap(k)+')'
        zero_d2t2=d([],'DT2') # D2GDT2
        w('/-- The macros as the functions of %s use them: `gmix`, `hmix`, `smix`, `cpmix`, `vmix` and `act`. -/'%s.f)
        w('def F (x : Fin %d → ℝ) : Mix %d where'%(len(s.sn),nr))
        w('  g t p r := '+ap('G'))
        w('  gr t p r := '+vec(lambda i:ap(d([i]))))
        w('  grr t p r := '+vec(lambda i:vec(lambda j:ap(d([i,j])))))
        w('  grrr t p r := '+vec(lambda i:vec(lambda j:vec(lambda k:ap(d([i,j,k]))))))
        w('  h t p r := ('+ap('G')+') + t * ('+ap('S')+')')
        w('  s t p r := '+ap('S'))
        w('  sr t p r := '+vec(lambda i:neg(d([i],'DT'))))
        w('  srr t p r := '+vec(lambda i:vec(lambda j:neg(d([i,j],'DT')))))
        w('  cp t p r := -t * ('+ap('D2GDT2')+')')
        w('  cpt t p r := -t * ('+ap('D3GDT3')+') - '+ap('D2GDT2'))
        w('  cpr t p r := '+vec(lambda i:'-t * ('+ap(d([i],'DT2'))+')'))
        w('  v t p r := '+ap('DGDP'))
        w('  vr t p r := '+vec(lambda i:ap(d([i],'DP'))))
        w('  vrr t p r := '+vec(lambda i:vec(lambda j:ap(d([i,j],'DP')))))
        for a,b in (('vt','D2GDTDP'),('vp','D2GDP2'),('vtt','D3GDT2DP'),('vtp','D3GDTDP2'),('vpp','D3GDP3')): w('  %s t p r := %s'%(a,ap(b)))
        w('  vrt t p r := '+vec(lambda i:ap(d([i],'DTDP'))))
        w('  vrp t p r := '+vec(lambda i:ap(d([i],'DP2'))))
        w('  fx r := '+ (vec(lambda i:'x %d'%s.sn.index(s.fx[i])) if s.fx else 'r')+'\n')
        locs=' '.join(str(n) for n in sorted({n for x in s.sn for _,n in s.sites[x]}))
        w('/-- Site fractions before clamping, lines %s of %s. -/'%(locs,s.f))
        rawr=lambda x:re.sub(r'\br(\d)\b',r'r \1',s.pr(s.raw(x)))
        w('def raw (r : Fin %d → ℝ) : Fin %d → ℝ := ![%s]\n'%(nr,len(s.sn),', '.join(rawr(x) for x in s.sn)))
        clamped=any('?' in s.sites[x][0][0] for x in s.sn)
        w('/-- The phase as coded in %s. -/'%s.f)
        w('def mix : Mix %d := ofSites F %s\n'%(nr,'fun r k => clamp (raw r k)' if clamped else 'raw'))
        # derivative lemmas
        rs=' '.join('r%d'%i for i in range(nr))
        rawe=[s.pr(s.raw(x)) for x in s.sn]
        par=lambda e: e if re.match(r'^\w+$',e) else '('+e+')'
        apx=lambda k:'%s t p %s %s'%(k,rs,' '.join(par(e) for e in rawe))
        hyp=' '.join('(h%d : 0 < %s)'%(i,e) for i,e in enumerate(rawe))
        hn=' '.join('h%d'%i for i in range(len(rawe)))
        # unfold list
        def unf(k,acc):
            for i in s.ids(s.ast[k]):
                if i in s.ast and s.dep_.get(i): unf(i,acc)
            if k not in acc: acc.append(k)
            return acc
        pre=['  have n%d := h%d.ne\''%(i,i) for i in range(len(rawe))]+['  '+e for e in s.extra]
        done=set()
        def lem(k,v,kd,sg=''):
            nme='%s_d%s'%(k,v.replace('r',''))
            if nme in done: return nme
            done.add(nme)
            un=[]; unf(k,un); unf(kd,un)
            tgt=('-('+apx(kd)+')') if sg else apx(kd)
            w('theorem %s (t p %s : ℝ) %s :'%(nme,rs,hyp))
            w('    HasDerivAt (fun %s => %s) (%s) %s := by'%(v,apx(k),tgt,v))
            o.extend(pre)
            w('  simp only [%s]'%', '.join(un))
            w('  refine HasDerivAt.congr_deriv (by hd) ?_')
            if s.logs: w('  try simp only [%s]'%', '.join(s.logs))
            w('  all_goals first | ring1 | (field_simp; done) | (field_simp; ring1)%s\n'%(' | (field_simp; ring_nf; field_simp; ring1)' if s.logs else ''))
            return nme
        diff=set()
        def dlem(k):
            nme=k+'_diff'
            if nme in diff: return nme
            diff.add(nme)
            un=[]; unf(k,un)
            sub=lambda e:re.sub(r'\br(\d)\b',r'r \1',e)
            apr='%s t p %s %s'%(k,' '.join('(r %d)'%i for i in range(nr)),' '.join('('+sub(e)+')' for e in rawe))
            hyps=' '.join('(h%d : 0 < %s)'%(i,sub(e)) for i,e in enumerate(rawe))
            w('theorem %s (t p : ℝ) (r : Fin %d → ℝ) %s :'%(nme,nr,hyps))
            w('    DifferentiableAt ℝ (fun r : Fin %d → ℝ => %s) r := by'%(nr,apr))
            for i in range(len(rawe)): w("  have n%d := h%d.ne'"%(i,i))
            w('  simp only [%s]'%', '.join(un))
            w('  dd\n'); return nme
        jobs={}
        def grad(k,ds,sg=''):
            # ds: list of derivative macro names per index
            for i in range(nr): lem(k,'r%d'%i,ds[i],sg)
            dlem(k)
        R_=range(nr)
        grad('G',[d([i]) for i in R_])
        for i in R_: grad(d([i]),[d([i,j]) for j in R_])
        for i in R_:
            for j in R_:
                if i<=j: grad(d([i,j]),[d([i,j,k]) for k in R_])
        grad('S',[d([i],'DT') for i in R_],'-')
        for i in R_: grad(d([i],'DT'),[d([i,j],'DT') for j in R_])
        grad('DGDP',[d([i],'DP') for i in R_])
        for i in R_: grad(d([i],'DP'),[d([i,j],'DP') for j in R_])
        hs=lambda:' '.join('(pos %d)'%i for i in range(len(rawe)))
        rr=' '.join('(r %d)'%i for i in range(nr))
        w('set_option maxHeartbeats 1600000 in')
        w('theorem consistent_raw : (ofSites F raw).Consistent (Interior raw) := by')
        w('  have posr : ∀ r, Interior raw r → ∀ k, 0 < raw r k := fun r hr k => lt_trans eps_pos (hr k)')
        w('  constructor')
        def G1(k,neg=False):
            # goal Grad
            w('    refine grad_of_partials %s(%s_diff t p r %s)%s fun j => partial_of_update ?_'%('(' if neg else '',k,hs(),'.fun_neg)' if neg else ''))
            w('    fin_cases j')
            for i in R_:
                w('    · exact %s(%s_d%d t p %s %s)%s'%('(' if neg else '',k,i,rr,hs(),').fun_neg' if neg else ''))
        def intro(ex=''):
            w('  · intro t p r hr'+ex); w('    have pos := posr r hr')
        def zero(txt): w('    '+txt)
        intro(); G1('G')
        intro(' i'); w('    fin_cases i')
        for i in R_: w('    · '+ 'skip'); ind(o,lambda: G1(d([i])))
        intro(' i j'); w('    fin_cases i <;> fin_cases j')
        for i in R_:
            for j in R_: w('    · skip'); ind(o,lambda: G1(d([i,j])))
        un=[];unf('G',un);unf('S',un)
        w('  · intro t p r hr'); w('    simp only [ofSites, F, %s]'%', '.join(un)); w('    refine HasDerivAt.congr_deriv (by hd) ?_'); w('    ring')
        w('  · intro t p r hr; rfl')
        # s_r : Grad s = - D2GDRiDT
        intro(); 
        w('    refine grad_of_partials (S_diff t p r %s) fun j => partial_of_update ?_'%hs()); w('    fin_cases j')
        for i in R_: w('    · exact S_d%d t p %s %s'%(i,rr,hs()))
        intro(' i'); w('    fin_cases i')
        for i in R_: w('    · skip'); ind(o,lambda: G1(d([i],'DT'),True))
        w('  · intro t p r hr'); w('    simp only [ofSites, F, %s]'%', '.join(un+['D2GDT2'])); w('    refine HasDerivAt.congr_deriv (by hd) ?_'); w('    ring')
        u2=['D2GDT2','D3GDT3']
        w('  · intro t p r hr'); w('    simp only [ofSites, F, %s]'%', '.join(u2)); w('    refine HasDerivAt.congr_deriv (by hd) ?_'); w('    ring')
        w('  · intro t p r hr'); 
        w('    refine grad_of_partials ?_ fun j => partial_of_update ?_')
        w('    · simp only [ofSites, F, D2GDT2]; dd')
        w('    · fin_cases j')
        for i in R_:
            w('      · change HasDerivAt (fun _ : ℝ => -t * (0 : ℝ)) (-t * (0 : ℝ)) _'); w('        exact (hasDerivAt_const _ _).congr_deriv (by ring)')
        un=[];unf('G',un);unf('DGDP',un)
        w('  · intro t p r hr'); w('    simp only [ofSites, F, %s]'%', '.join(dict.fromkeys(un))); w('    refine HasDerivAt.congr_deriv (by hd) ?_'); w('    ring')
        intro(); G1('DGDP')
        intro(' i'); w('    fin_cases i')
        for i in R_: w('    · skip'); ind(o,lambda: G1(d([i],'DP')))
        def tp(k,kd):
            un=[];unf(k,un);unf(kd,un)
            w('  · intro t p r hr'); w('    simp only [ofSites, F, %s]'%', '.join(dict.fromkeys(un))); w('    refine HasDerivAt.congr_deriv (by hd) ?_'); w('    ring')
        tp('DGDP','D2GDTDP');tp('DGDP','D2GDP2');tp('D2GDTDP','D3GDT2DP');tp('D2GDTDP','D3GDTDP2');tp('D2GDP2','D3GDP3')
        for suf in('DTDP','DP2'):
            w('  · intro t p r hr i'); w('    fin_cases i')
            for i in R_:
                v='t' if suf=='DTDP' else 'p'
                un=[];unf(d([i],'DP'),un);unf(d([i],suf),un)
                X=' '.join('(raw r %d)'%q for q in range(len(rawe)))
                w('    · change HasDerivAt (fun %s => %s t p %s %s) (%s t p %s %s) %s'%(v,d([i],'DP'),rr,X,d([i],suf),rr,X,v))
                w('      simp only [%s]'%', '.join(dict.fromkeys(un))); w('      refine HasDerivAt.congr_deriv (by hd) ?_'); w('      ring')
        X=' '.join('(raw r %d)'%q for q in range(len(rawe)))
        for v,suf,fm in (('t','DT','-(-(%s))'),('p','DP','%s')):
            w('  · intro t p r hr i'); w('    fin_cases i')
            for i in R_:
                un=[];unf(d([i]),un);unf(d([i],suf),un)
                w('    · change HasDerivAt (fun %s => %s t p %s %s) (%s) %s'%(v,d([i]),rr,X,fm%('%s t p %s %s'%(d([i],suf),rr,X)),v))
                w('      simp only [%s]'%', '.join(dict.fromkeys(un))); w('      refine HasDerivAt.congr_deriv (by hd) ?_'); w('      ring')
        w('  · intro t p r hr h0 i'); w('    fin_cases i')
        for i in R_:
            un=[];unf(d([i],'DT'),un);unf(d([i],'DT2'),un)
            w('    · change HasDerivAt (fun t => -(%s t p %s %s)) (-t * (%s t p %s %s) / t) t'%(d([i],'DT'),rr,X,d([i],'DT2'),rr,X))
            w('      simp only [%s]'%', '.join(dict.fromkeys(un))); w('      refine HasDerivAt.congr_deriv (by hd) ?_'); w('      first | ring | (field_simp; ring)')
        w('  · intro t p r hr')
        w('    refine grad_of_partials ?_ fun j => partial_of_update ?_')
        w('    · simp only [ofSites, F, D2GDP2]; dd')
        w('    · fin_cases j')
        for i in R_:
            w('      · change HasDerivAt (fun _ : ℝ => (0 : ℝ)) (0 : ℝ) _'); w('        exact hasDerivAt_const _ _')
        w('  · intro t p r hr i j; fin_cases i <;> fin_cases j <;> rfl')
        w('  · intro t p r hr i j k; fin_cases i <;> fin_cases j <;> fin_cases k <;> exact ⟨rfl, rfl⟩')
        if s.fx: w('  · intro r hr; funext i; fin_cases i <;> rfl\n')
        else: w('  · intro r hr; rfl\n')
        w('theorem raw_continuous (k : Fin %d) : Continuous fun r => raw r k := by'%len(rawe))
        w('  fin_cases k')
        for x in s.sn:
            w('  · change Continuous fun r : Fin %d → ℝ => %s'%(nr,rawr(x))); w('    fun_prop')
        w('')
        w('theorem consistent : mix.Consistent (Interior raw) := '+('consistent_clamp F raw raw_continuous consistent_raw' if clamped else 'consistent_raw')+'\n')
        w('/-- The dependent end member of %s. -/'%s.f)
        w('def dep : Fin %d := %d\n'%(s.na,s.dep))
        w('end %s\n'%s.name)
        return '\n'.join(o)
def ind(o,fn):
    n=len(o); fn()
    for i in range(n,len(o)): o[i]='  '+o[i]
    # drop skip bullet
    if o[n-1].strip()=='· skip': pass
def wrap(b,w=108):
    out=[];line=''
    for tok in b.split(' '):
        if len(line)+len(tok)+1>w: out.append(line); line=''
        line=(line+' '+tok) if line else tok
    out.append(line); return '\n    '.join(out)
