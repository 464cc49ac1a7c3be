"""Generates lean/Verif/Thermo/Ordered/*.lean from the macros of the phases with internal ordering."""
import re,sys,os
sys.path.insert(0,os.path.dirname(os.path.abspath(__file__)))
from ordload import *
PREC={'+':(65,65,66),'-':(65,65,66),'*':(70,70,71),'/':(70,70,71)}
def num(v):
    fr=Fraction(v)
    return str(fr.numerator) if fr.denominator==1 else '(%d / %d)'%(fr.numerator,fr.denominator)
def wrap(b,w=108,ind=4):
    out=[];line=''
    for tok in b.split(' '):
        if len(line)+len(tok)+1>w: out.append(line); line=''
        line=(line+' '+tok) if line else tok
    out.append(line); return ('\n'+' '*ind).join(out)
BLOCKS=[('d2gdr2','rr'),('d2gdrds','rs'),('d2gdrdt','rt'),('d2gdrdp','rp'),('d2gds2','ss'),('d2gdsdt','st'),('d2gdsdp','sp'),
 ('d3gdr3','rrr'),('d3gdr2ds','rrs'),('d3gdr2dt','rrt'),('d3gdr2dp','rrp'),('d3gdrds2','rss'),('d3gdrdsdt','rst'),('d3gdrdsdp','rsp'),
 ('d3gdrdt2','rtt'),('d3gdrdtdp','rtp'),('d3gdrdp2','rpp'),('d3gds3','sss'),('d3gds2dt','sst'),('d3gds2dp','ssp'),('d3gdsdt2','stt'),('d3gdsdtdp','stp'),('d3gdsdp2','spp')]
SC=[('dgdt','t'),('dgdp','p'),('d2gdt2','tt'),('d2gdtdp','tp'),('d2gdp2','pp'),('d3gdt3','ttt'),('d3gdt2dp','ttp'),('d3gdtdp2','tpp'),('d3gdp3','ppp')]
SUM={0:'Fin.sum_univ_zero',1:'Fin.sum_univ_one',2:'Fin.sum_univ_two',3:'Fin.sum_univ_three',4:'Fin.sum_univ_four',5:'Fin.sum_univ_five',6:'Fin.sum_univ_six'}
class Gen(Phase):
    """clamp: dict site -> (lo,hi,hi') as Lean text or None; extra: list of (name, C expr) kept positive besides the sites"""
    def __init__(s,lname,f,sites,sloc,clamp,extra=(),pos=(),rename=None,special=None,zero=(),logdiv=False,note='',coefs=False,hdo='hdo',ddo='ddo',redef=None,doc=None,imp=None,leaf=False,domx=False,flow=None,close='ring',**kw):
        s.redef=redef or {}; s.doc=doc or {}; s.hdo=hdo; s.ddo=ddo; s.imp=imp; s.leaf=leaf; s.domx=domx; s.flow=flow
        super().__init__(f,sites,redef=s.redef,**kw)
        s.close=close; s.lname=lname; s.sloc=sloc; s.clamp=clamp; s.extra=list(extra); s.pos=list(pos); s.rn=rename or {}
        s.special=special or {}; s.logdiv=logdiv; s.note=note
        s.V=s.vars(); s.sn=list(s.sites)
        s.base=['t','p']+['r%d'%i for i in range(s.nr)]+['s%d'%i for i in range(s.ns)]+s.sn
        s.deps={}
        for k in s.ast: s.dp(k)
        s.coefs={}; s.vco=set()
        if coefs:
            for k in s.ast:
                if s.deps[k]==['p'] and k[0]=='G' and 'V'+k[1:] in s.ast and not s.deps['V'+k[1:]]: s.coefs[k]='V'+k[1:]; s.vco.add('V'+k[1:])
        s.zeros=[k for k in s.ast if not s.deps[k] and s.isnum(s.ast[k]) and s.ev(s.ast[k],{})==0]
    def isnum(s,a): return a[0]=='num' or a[0]=='neg' and s.isnum(a[1])
    def dp(s,k):
        if k in s.deps: return s.deps[k]
        r=set()
        def go(a):
            if a[0]=='idx': r.add(a[1][1]+a[2][1]); return
            if a[0]=='id':
                i=a[1]
                if i in('t','p') or i in s.sites: r.add(i)
                elif i in s.ast: r.update(s.dp(i))
                return
            for b in a[1:]:
                if isinstance(b,tuple): go(b)
                elif isinstance(b,list): [go(c) for c in b]
        go(s.ast[k])
        if s.ast[k][0]=='call': pass
        s.deps[k]=[x for x in s.base if x in r]
        return s.deps[k]
    def nm(s,k): return s.rn.get(k,k)
    def app(s,k,f):
        d=s.deps[k]
        return s.nm(k) if not d else s.nm(k)+' '+' '.join(f(x) for x in d)
    def pr(s,a,p=0,f=lambda x:x):
        k=a[0]
        if k=='num': return num(a[1])
        if k=='neg':
            q='-'+s.pr(a[1],75,f); return '('+q+')' if p>65 else q
        if k in PREC:
            P,l,r=PREC[k]; q=s.pr(a[1],l,f)+' '+k+' '+s.pr(a[2],r,f)
            return '('+q+')' if p>P else q
        if k=='idx': return f(a[1][1]+a[2][1])
        if k=='call':
            fn=a[1][1]
            if fn in POW:
                q=s.pr(a[2][0],76,f)+' ^ %d'%POW[fn]; return '('+q+')' if p>75 else q
            if fn=='pow':
                q=s.pr(a[2][0],76,f)+' ^ '+str(int(s.ev(a[2][1],{}))); return '('+q+')' if p>75 else q
            q={'log':'Real.log','sqrt':'Real.sqrt'}[fn]+' '+s.pr(a[2][0],1024,f)
            return '('+q+')' if p>=1024 else q
        if k=='?':
            c=a[1]; q='if '+s.pr(c,0,f)+' then '+s.pr(a[2],0,f)+' else '+s.pr(a[3],0,f)
            return '('+q+')'
        if k=='id':
            i=a[1]
            if i in s.sites or i in('t','p'): return f(i)
            if i=='DBL_EPSILON': return 'dblEps'
            if i=='R': return 'R'
            if i in s.ast:
                q=s.app(i,f); return '('+q+')' if ' ' in q and p>=66 else q
            if i in s.env0: return i
        raise Exception(a)
    def order(s):
        done=[]
        def go(k):
            if k in done: return
            for i in ids(s.ast[k]):
                if i in s.ast: go(i)
            done.append(k)
        for k in s.ast: go(k)
        return done
    def unf(s,ks):
        acc=[]
        def go(k):
            if k in acc: return
            leaf=k in s.coefs or k in s.vco or not s.deps[k] and (s.isnum(s.ast[k]) and k not in s.zeros or k in s.special or s.ast[k][0]=='call' or s.leaf and k in s.C and k not in s.zeros)
            if leaf: return
            for i in ids(s.ast[k]):
                if i in s.ast: go(i)
            acc.append(k)
        for k in ks: go(k)
        return [s.nm(k) for k in acc]
    def uses(s,ks,want):
        out=[]; seen=set()
        def go(k):
            if k in seen: return
            seen.add(k)
            if want(k): out.append(k); return
            for i in ids(s.ast[k]):
                if i in s.ast: go(i)
        for k in ks: go(k)
        return out
    def logs(s,ks):
        """logarithms of quotients reached from ks"""
        out=[]
        def lg(a):
            if a[0]=='call' and a[1][1]=='log' and a[2][0][0]=='/':
                q=a[2][0]
                if q not in out: out.append(q)
            for b in a[1:]:
                if isinstance(b,tuple): lg(b)
                elif isinstance(b,list): [lg(c) for c in b]
        def go(k,seen):
            if k in seen or k in s.coefs or k in s.vco: return
            seen.add(k); lg(s.ast[k])
            for i in ids(s.ast[k]):
                if i in s.ast: go(i,seen)
        seen=set()
        for k in ks: go(k,seen)
        return out
    def fills(s):
        """array entries as the fill macros write them"""
        T={}
        for nm,(_,b,a,e) in s.F.items():
            if not nm.startswith('fill'): continue
            for st in b.split(';'):
                m=re.match(r'\s*(\w+)((?:\[\d\])+)\s*=\s*(.*)$',st.strip())
                if not m: continue
                key=(m.group(1),)+tuple(int(x) for x in re.findall(r'\d',m.group(2)))
                v=m.group(3).strip()
                q=re.match(r'(\w+)((?:\[\d\])+)$',v)
                if q: v=T[(q.group(1),)+tuple(int(x) for x in re.findall(r'\d',q.group(2)))]
                q=re.match(r'\((\w+)\)$',v)
                if q: v=q.group(1)
                T[key]=v
        return T
    def entry(s,blk,sig,ix):
        """macro for entry ix of array blk"""
        if (blk,)+ix in s.T: return s.T[(blk,)+ix]
        vs=[]; j=0
        for c in sig:
            if c in 'rs': vs.append((c,ix[j])); j+=1
            else: vs.append((c,))
        k=s.name(vs)
        assert k,(blk,ix)
        s.unfilled.add(blk)
        return k
    def lean(s):
        s.T=s.fills(); s.unfilled=set()
        for v in s.T.values():
            if v not in s.ast: s.ast[v]=parse_expr(v); s.dp(v)
        o=[]; w=o.append; nr,ns=s.nr,s.ns
        w('namespace %s\n'%s.lname)
        env=' '.join('(%s : %s)'%(k,v) for k,v in s.special.items())
        for k in s.order():
            if k not in s.D and k not in s.C: continue
            b=s.D[k] if k in s.D else s.C[k]
            loc='%s %s'%(s.f,b[1] if b[1]==b[2] else '%d-%d'%(b[1],b[2]))
            d=s.deps[k]
            w('/-- `%s`, %s%s. -/'%(k,loc,s.note if '?' in b[0] else '') if k not in s.doc else '/-- %s -/'%s.doc[k])
            w('def %s%s : ℝ :=\n  %s\n'%(s.nm(k),' (%s : ℝ)'%' '.join(d) if d else '',wrap(s.pr(s.ast[k]))))
        VT='Var %d %d'%(nr,ns)
        vn={'t':'(y (.inl iT))','p':'(y (.inl iP))'}
        for i in range(nr): vn['r%d'%i]='(y (.inl (.inl %d)))'%i
        for i in range(ns): vn['s%d'%i]='(y (.inr %d))'%i
        fy=lambda x: vn[x] if x in vn else '(x %d)'%s.sn.index(x)
        ap=lambda k:s.app(k,fy)
        def arr(blk,sig,pre=()):
            free=[c for c in sig if c in 'rs']
            if len(pre)==len(free): return ap(s.entry(blk,sig,pre))
            n=nr if free[len(pre)]=='r' else ns
            return '!['+', '.join(arr(blk,sig,pre+(i,)) for i in range(n))+']'
        nx=len(s.sn)
        fl=[v for k,v in s.F.items() if k.startswith('fill')] if not s.flow else [(0,0)+s.flow]
        w('/-- The arrays as the functions of %s fill them (lines %d-%d), for site fractions `x` and variables `y`. -/'%(s.f,min(a for _,_,a,_ in fl),max(e for _,_,_,e in fl)))
        w('def tables (x : Fin %d → ℝ) (y : %s → ℝ) : Tables %d %d where'%(nx,VT,nr,ns))
        L=['  g := '+ap('G'),'  s := '+s.entropy(ap),
           '  dgdr := ![%s]'%', '.join(ap(s.name([('r',i)])) for i in range(nr)),
           '  dgds := ![%s]'%', '.join(ap(s.name([('s',i)])) for i in range(ns))]
        for n,sg in SC: L.append('  %s := %s'%(n,ap(s.name([(c,) for c in sg])) if (n!='dgdt' or not getattr(s,'dgdtS',False)) else '  dgdt := -(%s)'%ap('S')))
        for n,sg in BLOCKS: L.append('  %s := %s'%(n,arr(n,sg)))
        for l in L: w(wrap(l))
        w('')
        # raw sites
        subs={}
        def rawtxt(f):
            return [s.pr(s.resolve(s.sites[x]),0,f) for x in s.sn]
        w('/-- Site fractions before they are kept inside their bounds, %s. -/'%s.sloc)
        w('def raw (y : %s → ℝ) : Fin %d → ℝ :=\n  %s\n'%(VT,nx,wrap('!['+', '.join(rawtxt(fy))+']')))
        w('/-- Bounds applied to the site fractions, %s. -/'%s.sloc)
        w('def site (y : %s → ℝ) : Fin %d → ℝ :=\n  %s\n'%(VT,nx,wrap('!['+', '.join(s.cl(x,'(raw y %d)'%i) for i,x in enumerate(s.sn))+']')))
        w('/-- The macros of %s at given composition, conditions and ordering state. -/'%s.f)
        w('def macros (y : %s → ℝ) : Tables %d %d := tables (site y) y\n'%(VT,nr,ns))
        w('/-- Where no bound on the site fractions is active. -/')
        conds=[]
        for i,x in enumerate(s.sn):
            lo,hi,_=s.clamp[x]
            conds.append('(%s < raw y %d%s)'%(lo,i,' ∧ raw y %d < %s'%(i,hi) if hi else ''))
        for c in s.pos: conds.append('0 < '+fy(c))
        if s.domx:
            for n,e in s.extra: conds.append('0 < '+s.pr(e,0,fy))
        if not conds: conds=['True']
        w('def Dom (y : %s → ℝ) : Prop :=\n  %s\n'%(VT,wrap(' ∧ '.join(conds))))
        # coefficients that depend on the pressure only
        for k in s.coefs:
            w('lemma k_%s {p : ℝ → ℝ} {v dp : ℝ} (hp : HasDerivAt p dp v) : HasDerivAt (fun v => %s (p v)) (%s * dp) v := by'%(k,k,s.coefs[k]))
            un=[]
            def unc(q):
                if q in un or not s.deps[q] and s.isnum(s.ast[q]): return
                for i in ids(s.ast[q]):
                    if i in s.ast: unc(i)
                if s.deps[q] or q in s.vco: un.append(q)
            unc(k); unc(s.coefs[k])
            w('  simp only [%s]'%', '.join(un)); w('  refine HasDerivAt.congr_deriv (by hdo) ?_'); w('  ring\n')
            w('lemma kd_%s (y : %s → ℝ) : DifferentiableAt ℝ (fun y : %s → ℝ => %s (y (.inl iP))) y := by'%(k,VT,VT,k))
            w('  simp only [%s]'%', '.join(q for q in un if s.deps[q])); w('  ddo\n')
        # curve lemmas
        dv={'t':'dt','p':'dp'}
        for i in range(nr): dv['r%d'%i]='dr%d'%i
        for i in range(ns): dv['s%d'%i]='ds%d'%i
        bv=['t','p']+['r%d'%i for i in range(nr)]+['s%d'%i for i in range(ns)]
        s.lin={x:s.linear(x) for x in s.sn}
        def curve(k,ders):
            """ders: dict var -> macro"""
            kd=[ders[v] for v in bv]
            D=set(s.deps[k]); 
            for q in kd: D|=set(s.deps[q])
            Dx=[x for x in s.sn if x in D]
            hy=[]
            hy.append('{%s : ℝ → ℝ}'%' '.join(bv+Dx)); hy.append('{v %s : ℝ}'%' '.join(dv[b] for b in bv))
            for b in bv: hy.append('(h%s : HasDerivAt %s %s v)'%(b,b,dv[b]))
            for x in Dx: hy.append('(h%s : HasDerivAt %s (%s) v) (p%s : 0 < %s v)'%(x,x,s.lin[x],x,x))
            for n,e in s.extra:
                es=set(i for i in ids(e) if i in s.sites)|set(a for a in s.idxs(e))
                if es<=D: hy.append('(p%s : 0 < %s)'%(n,s.pr(e,0,lambda x:'(%s v)'%x)))
            for c in s.pos:
                if c in D: hy.append('(p%s : 0 < %s v)'%(c,c))
            fv=lambda x:'(%s v)'%x
            part=lambda vs:' + '.join('%s * %s'%('('+s.app(ders[v],fv)+')' if s.deps[ders[v]] else s.nm(ders[v]),dv[v]) for v in vs)
            rs=part(bv[2:2+nr]) or '0'; ss=part(bv[2+nr:]) or '0'
            der='(%s) + (%s) + (%s)'%(rs,part(['t','p']),ss)
            w('lemma c_%s %s :'%(s.nm(k),wrap(' '.join(hy))))
            w('    HasDerivAt (fun v => %s)\n    (%s) v := by'%(s.app(k,fv),wrap(der)))
            for x in Dx: w("  have n%s := p%s.ne'"%(x,x))
            for n,e in s.extra:
                if any('(p%s : '%n in h for h in hy): w("  have n%s := p%s.ne'"%(n,n))
            for c in s.pos:
                if c in D: w("  have n%s := p%s.ne'"%(c,c))
            w('  try simp only [%s]'%', '.join(s.unf([k]+kd)+['zero_mul','mul_zero','add_zero','zero_add','sub_zero']) )
            if s.logdiv: w('  try simp only [%s]'%', '.join('Real.log_div'))
            for c in s.uses([k],lambda q:q in s.coefs): w('  have h%s := k_%s hp'%(c,c))
            w('  refine HasDerivAt.congr_deriv (by %s) ?_'%s.hdo)
            lg=s.logs([k]+kd) if (s.coefs or s.leaf) and s.close=='ring' else []
            if lg:
                L=[]
                for q in lg:
                    at=[]
                    def fl(a):
                        if a[0] in '*/': fl(a[1]); fl(a[2])
                        else: at.append(s.pr(a,0,lambda x:x))
                    fl(q)
                    L.append(('log4' if len(at)==4 else 'log2')+' '+' '.join('n'+z for z in at))
                w('  try simp only [%s]'%', '.join(L))
            w('  %s\n'%s.close)
            return Dx,D
        def gr(k,ders,field,idx,row):
            Dx,D=s.cv[k]
            w('lemma gr_%s (y : %s → ℝ) (hy : Dom y) :'%(s.nm(k)+('' if not idx else ''),VT))
            w('    Gr (fun y => (tables (raw y) y).%s) y ((tables (raw y) y)%s) := by'%(field,row))
            w('  refine Gr.of_lines ?_ fun u => ?_')
            w('  · have hp := pos y hy')
            w('    change DifferentiableAt ℝ (fun y => %s) y'%s.app(k,lambda x: vn[x] if x in vn else '(raw y %d)'%s.sn.index(x)))
            for x in Dx:
                if x in s.deps[k]:
                    i=s.sn.index(x); w("    have d%d := raw_diff %d y"%(i,i)); w("    have q%d := hp.%s"%(i,s.proj(i))); w("    have n%d := q%d.ne'"%(i,i))
            for j,(n,e) in enumerate(s.extra):
                w("    have qx%d := hp.%s"%(j,s.proj(nx+j))); w("    have nx%d := qx%d.ne'"%(j,j))
            for j,c in enumerate(s.pos):
                w("    have qc%d := hp.%s"%(j,s.proj(nx+len(s.extra)+j))); w("    have nc%d := qc%d.ne'"%(j,j))
            w('    try simp only [%s]'%', '.join(s.unf([k])+['zero_mul','mul_zero','add_zero','zero_add','sub_zero']))
            for c in s.uses([k],lambda q:q in s.coefs): w('    have k%s := kd_%s y'%(c,c))
            w('    '+s.ddo)
            w('  · have hp := pos y hy')
            args=['(hl y u (%s))'%vn[b][3:-1] for b in bv]
            for x in Dx:
                i=s.sn.index(x); args.append('(raw_line%d y u)'%i); args.append('(by simpa only [zero_mul, add_zero] using hp.%s)'%s.proj(i))
            hyx=[]
            for j,(n,e) in enumerate(s.extra):
                es=set(i for i in ids(e) if i in s.sites)|set(a for a in s.idxs(e))
                if es<=D: args.append('(by simpa only [zero_mul, add_zero] using hp.%s)'%s.proj(nx+j))
            for j,c in enumerate(s.pos):
                if c in D: args.append('(by simpa only [zero_mul, add_zero] using hp.%s)'%s.proj(nx+len(s.extra)+j))
            w('    have h := c_%s %s'%(s.nm(k),wrap(' '.join(args),90,8)))
            w('    try simp only [zero_mul, add_zero] at h')
            w('    refine h.congr_deriv ?_')
            w('    rw [sum_var]; simp only [%s]; rfl\n'%', '.join(sorted({SUM[nr],SUM[ns]})))
        # raw lemmas
        w('lemma hl (y u : %s → ℝ) (i : %s) : HasDerivAt (fun v : ℝ => y i + v * u i) (u i) 0 := by'%(VT,VT))
        w('  simpa using ((hasDerivAt_id\' (0 : ℝ)).mul_const (u i)).const_add (y i)\n')
        for i,x in enumerate(s.sn):
            un={'dr%d'%j:'u (.inl (.inl %d))'%j for j in range(nr)}; un.update({'ds%d'%j:'u (.inr %d)'%j for j in range(ns)})
            ltx=re.sub(r'\bd([rs]\d)\b',lambda m:un[m.group(0)],s.lin[x])
            fl2=lambda z:'(y %s + v * u %s)'%(vn[z][3:-1],vn[z][3:-1])
            w('lemma raw_line%d (y u : %s → ℝ) : HasDerivAt (fun v : ℝ => raw (fun i => y i + v * u i) %d)\n    (%s) 0 := by'%(i,VT,i,ltx))
            for b in bv[2:]: w('  have h%s := hl y u (%s)'%(b,vn[b][3:-1]))
            w('  change HasDerivAt (fun v : ℝ => %s) _ 0'%wrap(rawtxt(fl2)[i]))
            w('  refine HasDerivAt.congr_deriv (by hdo) ?_'); w('  ring\n')
        if nx:
            w('lemma raw_diff (k : Fin %d) (y : %s → ℝ) : DifferentiableAt ℝ (fun y => raw y k) y := by'%(nx,VT))
            w('  fin_cases k')
            for i,x in enumerate(s.sn): w('  · change DifferentiableAt ℝ (fun y : %s → ℝ => %s) y; ddo'%(VT,rawtxt(fy)[i]))
            w('')
        P=['0 < raw y %d'%i for i in range(nx)]+['0 < '+s.pr(e,0,lambda x: vn[x] if x in vn else 'raw y %d'%s.sn.index(x)) for n,e in s.extra]+['0 < '+fy(c) for c in s.pos]
        s.np=len(P)
        w('lemma pos (y : %s → ℝ) (hy : Dom y) :\n    %s := by'%(VT,wrap(' ∧ '.join(P) or 'True')))
        if P:
            w('  have he := dblEps_pos')
            w('  obtain ⟨%s⟩ := hy'%', '.join(['h%d'%i for i in range(len(conds))]))
            w('  refine ⟨%s⟩ <;> first | linarith | assumption\n'%', '.join(['?_']*len(P)) if len(P)>1 else '  linarith\n')
        else: w('  trivial\n')
        s.cv={}; jobs=[]
        vv={'t':('t',),'p':('p',)}
        for i in range(nr): vv['r%d'%i]=('r',i)
        for i in range(ns): vv['s%d'%i]=('s',i)
        def ent(vs):
            sig=sorted(vs,key=lambda v:'rstp'.index(v[0])); key=''.join(v[0] for v in sig); ix=tuple(v[1] for v in sig if v[0] in'rs')
            for n,sg in BLOCKS:
                if sg==key: return s.entry(n,sg,ix)
            if key=='t' and getattr(s,'dgdtS',False): return 'DGDT'
            return s.name(vs)
        for n in (0,1,2):
            for vs in itertools.combinations_with_replacement([vv[b] for b in bv[2:]+bv[:2]],n):
                k='G' if n==0 else ent(list(vs))
                ders={b:ent(list(vs)+[vv[b]]) for b in bv}
                if k not in s.cv: s.cv[k]=curve(k,ders); s.gd=getattr(s,'gd',{}); s.gd[k]=ders
                else: assert s.gd[k]==ders,(k,s.gd[k],ders)
        w(wrap('attribute [local irreducible] '+' '.join(s.nm(k) for k in s.order() if s.deps[k]))+'\n')
        ixn=lambda v:{'t':'(.inl iT)','p':'(.inl iP)'}.get(v[0]) or ('(.inl (.inl %d))'%v[1] if v[0]=='r' else '(.inr %d)'%v[1])
        names={}
        for n in (0,1,2):
            for vs in itertools.combinations_with_replacement([vv[b] for b in bv[2:]+bv[:2]],n):
                vs=sorted(vs,key=lambda v:('rstp'.index(v[0]),)+v[1:])
                k='G' if n==0 else ent(list(vs)); key=''.join(v[0] for v in vs); ix=[v[1] for v in vs if v[0] in 'rs']
                fld='g' if n==0 else ({'r':'dgdr','s':'dgds','t':'dgdt','p':'dgdp'}[key] if n==1 else dict((b,a) for a,b in BLOCKS+SC)[key])
                row='.at1' if n==0 else ('.at2 ' if n==1 else '.at3 ')+' '.join(ixn(v) for v in vs)
                if k in names and names[k]!=(fld,tuple(ix)): kk=None
                names[k]=(fld,tuple(ix))
                s_k=k
                # one lemma per position
                o_n=len(o)
                gr(k,s.gd[k],fld+''.join(' %d'%i for i in ix),None,row)
                o[o_n]=o[o_n].replace('lemma gr_%s '%s.nm(k),'lemma gr_%s '%(fld+''.join('_%d'%i for i in ix)))
        # symmetry
        w('lemma symm (x : Fin %d → ℝ) (y : %s → ℝ) : (tables x y).Symm := by'%(nx,VT))
        w('  constructor')
        w('  · intro i j; fin_cases i <;> fin_cases j <;> rfl')
        w('  · intro i j; fin_cases i <;> fin_cases j <;> rfl')
        w('  · intro i j k; fin_cases i <;> fin_cases j <;> fin_cases k <;> exact ⟨rfl, rfl⟩')
        w('  · intro i j k; fin_cases i <;> fin_cases j <;> fin_cases k <;> rfl')
        w('  · intro i j; fin_cases i <;> fin_cases j <;> rfl')
        w('  · intro i j; fin_cases i <;> fin_cases j <;> rfl')
        w('  · intro i j k; fin_cases i <;> fin_cases j <;> fin_cases k <;> rfl')
        w('  · intro i j k; fin_cases i <;> fin_cases j <;> fin_cases k <;> exact ⟨rfl, rfl⟩')
        w('  · intro i j; fin_cases i <;> fin_cases j <;> rfl')
        w('  · intro i j; fin_cases i <;> fin_cases j <;> rfl\n')
        w('lemma ok_raw : (jets fun y => tables (raw y) y).Ok Dom := by')
        w('  refine jets_ok (fun y _ => symm (raw y) y) gr_g ?_ gr_dgdt gr_dgdp ?_ ?_ ?_ ?_ ?_ ?_ ?_ ?_ gr_d2gdt2 gr_d2gdtdp gr_d2gdp2')
        def blk(fld,sig,sym=False):
            n=[nr if c=='r' else ns for c in sig]
            v=['i','j'][:len(sig)]
            w('  · intro y hy %s'%' '.join(v)); w('    '+' <;> '.join('fin_cases %s'%q for q in v))
            for ix in itertools.product(*[range(m) for m in n]):
                if sym and ix[0]>ix[1]:
                    w('    · exact (gr_%s y hy).congr_d (funext fun k => ((symm (raw y) y).at3 _ _ k).1)'%(fld+''.join('_%d'%q for q in (ix[1],ix[0]))))
                else: w('    · exact gr_%s y hy'%(fld+''.join('_%d'%q for q in ix)))
        blk('dgdr','r'); blk('dgds','s'); blk('d2gdr2','rr',True); blk('d2gdrds','rs'); blk('d2gdrdt','r'); blk('d2gdrdp','r'); blk('d2gds2','ss',True); blk('d2gdsdt','s'); blk('d2gdsdp','s')
        w('')
        s.tail(w,VT,nx,conds)
        w('end %s\n'%s.lname)
        return '\n'.join(o)
    def entropy(s,ap): return ap('S')
    def proj(s,i):
        n=s.np
        return '2.'*i+'1' if i<n-1 else ('2.'*i)[:-1] if i else '1' if n>1 else ''
    def idxs(s,a):
        if a[0]=='idx': yield a[1][1]+a[2][1]; return
        for b in a[1:]:
            if isinstance(b,tuple): yield from s.idxs(b)
            elif isinstance(b,list):
                for c in b: yield from s.idxs(c)
    def resolve(s,a):
        if a[0]=='id' and a[1] in s.sites: return s.resolve(s.sites[a[1]])
        return tuple(s.resolve(b) if isinstance(b,tuple) else b for b in a)
    def cl(s,x,r):
        lo,hi,hi2=s.clamp[x]
        if lo=='0' and not hi and not hi2: return r[1:-1]
        if hi: return 'keep %s %s %s %s'%(s.pa(lo),s.pa(hi),s.pa(hi2),r)
        return 'keepAbove %s %s'%(s.pa(lo),r)
    def pa(s,t): return t if re.match(r'^\w+$',t) else '('+t+')'
    def linear(s,x):
        """derivative of a site along dr*, ds* as text"""
        a=s.resolve(s.sites[x]); out=[]
        for v in [('r',i) for i in range(s.nr)]+[('s',i) for i in range(s.ns)]:
            c=s.coef(a,v)
            if c: out.append('%s * d%s%d'%(num(c) if c>=0 else '('+('-'+num(-c) if (-c).denominator==1 else '-(%d) / %d'%((-c).numerator,(-c).denominator))+')',v[0],v[1]))
        return ' + '.join(out) if out else '0'
    def coef(s,a,v):
        def cv(a):
            k=a[0]
            if k=='num': return Fraction(a[1])
            if k=='neg': return -cv(a[1])
            return {'+':lambda:cv(a[1])+cv(a[2]),'-':lambda:cv(a[1])-cv(a[2]),'*':lambda:cv(a[1])*cv(a[2]),'/':lambda:cv(a[1])/cv(a[2])}[k]()
        def isc(a):
            return a[0]!='idx' and all(isc(b) for b in a[1:] if isinstance(b,tuple))
        k=a[0]
        if k=='num': return Fraction(0)
        if k=='idx': return Fraction(1 if (a[1][1],int(a[2][1]))==v else 0)
        if k=='neg': return -s.coef(a[1],v)
        if k in '+-': return s.coef(a[1],v)+(1 if k=='+' else -1)*s.coef(a[2],v)
        if k=='*': return cv(a[1])*s.coef(a[2],v) if isc(a[1]) else s.coef(a[1],v)*cv(a[2])
        if k=='/': return s.coef(a[1],v)/cv(a[2])
    def tail(s,w,VT,nx,conds):
        w('lemma site_eq (y : %s → ℝ) (hy : Dom y) : site y = raw y := by'%VT)
        if nx:
            w('  obtain ⟨%s⟩ := hy'%', '.join('h%d'%i for i in range(len(conds))) if len(conds)>1 else '  have h0 := hy')
            w('  funext k; fin_cases k')
            for i,x in enumerate(s.sn):
                w('  · exact %s'%('keep_eq h%d.1 h%d.2'%(i,i) if s.clamp[x][1] else 'rfl' if s.clamp[x][0]=='0' and not s.clamp[x][2] else 'keepAbove_eq h%d'%i))
        else: w('  funext k; exact k.elim0')
        w('')
        w('lemma dom_open : IsOpen {y | Dom y} := by')
        if nx or s.pos or s.domx:
            if nx: w('  have hc : ∀ k, Continuous fun y => raw y k := fun k =>\n    continuous_iff_continuousAt.2 fun y => (raw_diff k y).continuousAt')
            if s.pos: w('  have hv : ∀ i, Continuous fun y : %s → ℝ => y i := fun i => continuous_apply i'%VT)
            ps=[]
            for i,x in enumerate(s.sn):
                lo,hi,_=s.clamp[x]
                a='isOpen_lt continuous_const (hc %d)'%i
                ps.append('(%s).inter (isOpen_lt (hc %d) continuous_const)'%(a,i) if hi else a)
            for c in s.pos: ps.append('isOpen_lt continuous_const (hv _)')
            if s.domx:
                for n,e in s.extra: ps.append('isOpen_lt continuous_const (by fun_prop : Continuous fun y : %s → ℝ => %s)'%(VT,s.pr(e,0,s.fsite())))
            ex='('+ps[-1]+')'
            for q in reversed(ps[:-1]): ex='((%s).inter %s)'%(q,ex)
            w('  exact '+wrap(ex[1:-1]))
        else: w('  exact isOpen_const')
        w('')
        w('/-- The arrays of %s are the derivatives of its Gibbs energy to third order. -/'%s.f)
        w('theorem ok : (jets macros).Ok Dom :=')
        w('  ok_congr dom_open (fun y hy => by unfold macros; rw [site_eq y hy]) ok_raw\n')
        w('lemma entropy_eq (y : %s → ℝ) : (jets macros).g1 y (.inl iT) = -(macros y).s := by'%VT)
        w('  %s\n'%s.entproof())
    def entproof(s):
        return 'change %s = -(%s)\n  simp only [DGDT]'%(s.app('DGDT',s.fsite()),s.app('S',s.fsite()))
    def fsite(s):
        vn={'t':'(y (.inl iT))','p':'(y (.inl iP))'}
        for i in range(s.nr): vn['r%d'%i]='(y (.inl (.inl %d)))'%i
        for i in range(s.ns): vn['s%d'%i]='(y (.inr %d))'%i
        return lambda x: vn[x] if x in vn else '(site y %d)'%s.sn.index(x)
class Pure(Gen):
    """The macros of one pure end member: `XX_G, DXX_GDS1, …` with the ordering parameter `s[k]`; they are renamed to those of a
    phase without composition variables and one ordering parameter."""
    def __init__(s,lname,f,tag,k,pos,keep=(),**kw):
        s.tag=tag; s.k=k
        super().__init__(lname,f,{},f,{},extra=pos,domx=True,**kw)
        for q in s.src:
            if q in s.ast and q in s.D: s.doc.setdefault(q,'`%s`, %s %s.'%(s.src[q],f,s.D[q][1] if s.D[q][1]==s.D[q][2] else '%d-%d'%s.D[q][1:]))
    def translate(s):
        tag,k=s.tag,s.k; D={}; ren={}
        for q in s.D:
            m=re.match(r'^(D\d?)?%s_(G|S|H|V)(.*)$'%tag,q)
            if m: ren[q]=(m.group(1) or '')+m.group(2)+re.sub(r'^DTP$','DTDP',re.sub(r'S%d'%k,'S0',m.group(3)))
        s.src={v:q for q,v in ren.items()}
        bad=re.compile(r'^(D\d?GD|S$|H$|V$|G$|NR$|NS$)')
        for q,(b,x,y) in s.D.items():
            if q in ren: D[ren[q]]=(re.sub(r's\[%d\]'%k,'s[0]',re.sub(r'\b\w+\b',lambda m:ren.get(m.group(0),m.group(0)),b)),x,y)
            elif not bad.match(q): D[q]=(b,x,y)
        D['NR']=('0',0,0); D['NS']=('1',0,0)
        s.D=D; s.F={}
HEAD='''import Verif.Thermo.OrderTables

/-!
%s Generated by /verif/tools/gen/genord.py from the macros of /repo/sources/%s: one definition per macro, with the
macros it mentions as definitions (the generator checks that this has the value of C's textual substitution).
-/

namespace Verif.Thermo.Ordering

open Magma.Thermo.Mixing (R)

noncomputable section

set_option linter.unusedVariables false
set_option linter.unnecessarySeqFocus false
set_option linter.unusedSimpArgs false
set_option linter.unusedTactic false
set_option linter.unreachableTactic false

'''
