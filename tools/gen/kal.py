"""Kalsilite (kalsilite.c): generator adapter; emits lean/Verif/Thermo/Minerals/Kalsilite.lean."""
import genmix,re,math
from genmix import *
_load=genmix.load
def load(f):
    D,C,sites=_load(f)
    L=open('/repo/sources/'+f,errors='replace').read().split('\n')
    for n,l in enumerate(L):
        m=re.match(r'\s*double\s+(x\w+)\s*=\s*(.*);',l)
        if m: sites.setdefault(m.group(1),[]).append((re.sub(r'\s+','',m.group(2)),n+1))
    for s in sites.values(): assert len({k for k,_ in s})==1,s
    return D,C,sites
genmix.load=load
class Kal(Ph):
    def __init__(s):
        super().__init__('Kalsilite','kalsilite.c',0,None)
        for k in list(s.D):
            if re.match(r'(D[HSV]\d|[SG]4|PENALTY)$',k): s.ast[k]=parse_expr(s.D[k][0])
        s.dep_={}
        for k in s.ast: s.isdep(k)
    def ids(s,a):
        if a[0]=='?': yield from s.ids(a[2]); yield from s.ids(a[1][1]); return
        if a[0]=='call':
            for c in a[2]: yield from s.ids(c)
            return
        yield from super().ids(a)
    def pr(s,a,p=0):
        if a[0]=='?': return '(orMax %s %s)'%(s.pr(a[1][1],1024),s.pr(a[2],1024))
        if a[0]=='call' and a[1][1]=='sqrt': return 'Real.sqrt eps'
        return super().pr(a,p)
    def ev(s,a,e):
        if a[0]=='?': return s.ev(a[2],e)
        if a[0]=='call' and a[1][1]=='sqrt': return 2.0**-26
        return super().ev(a,e)
s=Kal(); t=s.lean()
# positivity of xvc - xca as a fifth condition
e5='(r1 + r2) / 4 - r2 / 4'
t=t.replace('theorem consistent :','@@')
t=re.sub(r'(\(h3 : 0 < [^\n]*?)( :\n    (?:HasDerivAt|DifferentiableAt))',lambda m:m.group(1)+' (h4 : 0 < %s)'%(e5 if 'HasDerivAt' in m.group(2) else '(r 1 + r 2) / 4 - r 2 / 4')+m.group(2),t)
ex="  have n4 := h4.ne'\n  have a0 : 0 < r1 := by linarith\n  have a1 := a0.ne'\n  have a2 : r2 ≠ 0 := by intro h; rw [h] at h3; norm_num at h3\n  have e0 : (r1 + r2) / 4 - r2 / 4 = r1 / 4 := by ring\n  have e1 : ∀ e : ℝ, orMax r1 e = e := fun e => if_pos a0\n"
exd=re.sub(r'\br(\d)\b',r'r \1',ex).replace('orMax r 1','orMax (r 1)')
def fix(m):
    b=m.group(0)
    if 'HasDerivAt' in b:
        b=b.replace("  have n3 := h3.ne'\n","  have n3 := h3.ne'\n"+ex).replace('(by hd)','(by hdk)')
        b=b.replace('  all_goals first','  all_goals try simp only [e0, e1]\n  all_goals try generalize 1 - r0 - r1 / 4 - r2 / 2 = y at n2 ⊢\n  all_goals first')
    else:
        b=b.replace("  have n3 := h3.ne'\n","  have n3 := h3.ne'\n"+exd).replace('  dd\n','  ddk\n')
    return b
i=t.index('set_option maxHeartbeats')
t=re.sub(r'theorem \w+_d(?:\d|iff) .*?\n\n',fix,t[:i],flags=re.S)+t[i:]
t=t.replace('(pos 3)','(pos 3) (pos 4)')
t=t.replace('(ofSites F raw).Consistent (Interior raw)','(ofSites F raw).Consistent (Interior dom)').replace("Interior raw r → ∀ k, 0 < raw r k","Interior dom r → ∀ k, 0 < dom r k")
t=t.replace('/-- The phase as coded in','''/-- What the functions take logarithms of: the site fractions and `xvc - xca`, the vacancies not paired with calcium
(kalsilite.c 144). -/
def dom (r : Fin 3 → ℝ) : Fin 5 → ℝ := ![r 0, (r 1 + r 2) / 4, 1 - r 0 - r 1 / 4 - r 2 / 2, r 2 / 4,
  (r 1 + r 2) / 4 - r 2 / 4]

/-- The phase as coded in''').replace("def mix : Mix 3 := ofSites F raw","def mix : Mix 3 := ofSites F fun r k => clamp2 (raw r k)")
j=t.index('theorem raw_continuous'); k=t.index('@@'); 
t=t[:j]+'''theorem dom_continuous (k : Fin 5) : Continuous fun r => dom r k := by
  fin_cases k
  · change Continuous fun r : Fin 3 → ℝ => r 0
    fun_prop
  · change Continuous fun r : Fin 3 → ℝ => (r 1 + r 2) / 4
    fun_prop
  · change Continuous fun r : Fin 3 → ℝ => 1 - r 0 - r 1 / 4 - r 2 / 2
    fun_prop
  · change Continuous fun r : Fin 3 → ℝ => r 2 / 4
    fun_prop
  · change Continuous fun r : Fin 3 → ℝ => (r 1 + r 2) / 4 - r 2 / 4
    fun_prop

/-- In the interior neither clamp has an effect: the four site fractions leave room for each other. -/
theorem clamp2_raw (r : Fin 3 → ℝ) (hr : Interior dom r) (k : Fin 4) : clamp2 (raw r k) = raw r k := by
  have h0 : r 0 > eps := hr 0
  have h1 : (r 1 + r 2) / 4 > eps := hr 1
  have h2 : 1 - r 0 - r 1 / 4 - r 2 / 2 > eps := hr 2
  have h3 : r 2 / 4 > eps := hr 3
  have h4 : (r 1 + r 2) / 4 - r 2 / 4 > eps := hr 4
  have he := eps_pos
  fin_cases k
  · exact clamp2_of h0 (show r 0 < 1 - eps by linarith)
  · exact clamp2_of h1 (show (r 1 + r 2) / 4 < 1 - eps by linarith)
  · exact clamp2_of h2 (show 1 - r 0 - r 1 / 4 - r 2 / 2 < 1 - eps by linarith)
  · exact clamp2_of h3 (show r 2 / 4 < 1 - eps by linarith)

theorem consistent : mix.Consistent (Interior dom) :=
  consistent_sites F raw _ (Interior dom) (isOpen_interior dom dom_continuous) (fun r hr => funext (clamp2_raw r hr))
    consistent_raw

'''+t[t.index('/-- The dependent end member'):]
# generic head
mx=open('/verif/lean/Verif/Thermo/Mixing.lean').read()
a=mx.index('theorem consistent_clamp {ns'); b=mx.index('/-! ### Derivative tactics')
c=mx[a:b]
c=c[c.index('  constructor\n'):].replace('Interior raw r','D r')
head='''/-- `(y > 0.0) ? e : DBL_MAX`, kalsilite.c 153. -/
def orMax (y e : ℝ) : ℝ := if y > 0 then e else (2 - 2 ^ (-52 : ℤ)) * 2 ^ 1023

/-- The two clamps of a site fraction, kalsilite.c 649-656 (and 767-774, 811-818, 838-845, 885-892, 940-947). -/
def clamp2 (y : ℝ) : ℝ := if clamp y ≥ 1 - eps then 1 - eps else clamp y

theorem clamp2_of {y : ℝ} (h : y > eps) (h' : y < 1 - eps) : clamp2 y = y := by
  unfold clamp2
  rw [clamp_of h, if_neg (not_le.mpr h')]

theorem hasDerivAt_orMax {f g : ℝ → ℝ} {f' g' x : ℝ} (hg : HasDerivAt g g' x) (hf : HasDerivAt f f' x)
    (h : 0 < g x) : HasDerivAt (fun y => orMax (g y) (f y)) f' x := by
  refine hf.congr_of_eventuallyEq ?_
  filter_upwards [hg.continuousAt.eventually (lt_mem_nhds h)] with y hy
  exact if_pos hy

theorem differentiableAt_orMax {nr : ℕ} {f g : (Fin nr → ℝ) → ℝ} {x : Fin nr → ℝ} (hg : DifferentiableAt ℝ g x)
    (hf : DifferentiableAt ℝ f x) (h : 0 < g x) : DifferentiableAt ℝ (fun y => orMax (g y) (f y)) x := by
  refine hf.congr_of_eventuallyEq ?_
  filter_upwards [hg.continuousAt.eventually (lt_mem_nhds h)] with y hy
  exact if_pos hy

/-- Two choices of the site fractions that agree on an open set give the same consistency there. -/
theorem consistent_sites {nr ns : ℕ} (F : (Fin ns → ℝ) → Mix nr) (raw sites : (Fin nr → ℝ) → Fin ns → ℝ)
    (D : (Fin nr → ℝ) → Prop) (ho : IsOpen {r | D r}) (hs : ∀ r, D r → sites r = raw r)
    (h : (ofSites F raw).Consistent D) : (ofSites F sites).Consistent D := by
  have ev : ∀ r, D r → ∀ q : (Fin ns → ℝ) → (Fin nr → ℝ) → ℝ,
      (fun r => q (sites r) r) =ᶠ[nhds r] fun r => q (raw r) r := by
    intro r hr q
    filter_upwards [ho.mem_nhds hr] with r hr
    rw [hs r hr]
'''+c+'''macro "hdk" : tactic => `(tactic| repeat' first
  | exact hasDerivAt_const _ _
  | exact hasDerivAt_id' _
  | assumption
  | apply HasDerivAt.fun_sub
  | apply HasDerivAt.fun_add
  | apply HasDerivAt.fun_neg
  | apply HasDerivAt.fun_div
  | apply HasDerivAt.fun_mul
  | apply HasDerivAt.fun_pow
  | apply HasDerivAt.log
  | apply hasDerivAt_orMax
  | apply mul_ne_zero
  | (norm_num; done))

'''
i=mx.index('macro "dd"'); j=mx.index('\n\n',i)
head+=mx[i:j].replace('"dd"','"ddk"').replace("first\n","first\n  | apply differentiableAt_orMax\n",1)+'\n\n'
from runmix_hdr import hdr,END,tail
n=tail(s,['1 / 4','1 / 4','1 / 4']).replace('Kalsilite.raw','Kalsilite.dom').replace('raw_continuous','dom_continuous')
n=n.replace('unfold eps; norm_num\n\n','unfold eps; norm_num\n  · change ((1 / 4 + 1 / 4) / 4 - 1 / 4 / 4 : ℝ) > eps; unfold eps; norm_num\n\n',1)
import sys
h=hdr('Kalsilite. The `DBL_MAX` returned for a composition without vacancies is kept (`orMax`).').replace('above `DBL_EPSILON`','above `DBL_EPSILON` (and `xvc - xca` with them)')
open('/verif/lean/Verif/Thermo/Minerals/Kalsilite.lean','w').write(h+head+t+'\n'+n+END)
