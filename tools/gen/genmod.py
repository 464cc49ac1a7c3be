import sys; sys.path.insert(0,'/tmp/w')
from gencon import *
HEAD='''import Verif.Thermo.Compo

/-!
Model of the composition conversions `con*` of the solution phases whose independent variables are written out
one by one (branches `inpMask == SECOND` and `inpMask == THIRD`). Each definition transcribes the assignments of
the cited lines; loops over the output index are unrolled, loops over `j`, `k`, `l` are arguments.

Simplification: `double` is the real numbers; decimal constants are rationals. In `olivine.c` 2695 values below
`DBL_EPSILON` are replaced by 0 afterwards; that line is modelled separately by `Olivine.snap`.
-/

namespace Magma.Thermo.Compo

open Finset Magma.Thermo.Extensive

noncomputable section

/-! ### Specification -/

/-- What a phase offers: moles to independent variables, with three orders of derivatives, and independent
variables to mole fractions, with the Jacobian. -/
structure Conversion (na nr : ℕ) where
  toR : (Fin na → ℝ) → Fin nr → ℝ
  dm : (Fin na → ℝ) → Fin nr → Fin na → ℝ
  d2m : (Fin na → ℝ) → Fin nr → Fin na → Fin na → ℝ
  d3m : (Fin na → ℝ) → Fin nr → Fin na → Fin na → Fin na → ℝ
  fromR : (Fin nr → ℝ) → Fin na → ℝ
  dr : Fin na → Fin nr → ℝ

/-- The conversions agree with each other and the derivatives offered are derivatives. -/
structure Conversion.Consistent {na nr : ℕ} (C : Conversion na nr) : Prop where
  /-- moles to variables to fractions is moles to fractions -/
  roundtrip : ∀ m, ∑ i, m i ≠ 0 → ∀ i, C.fromR (C.toR m) i = m i / ∑ i, m i
  /-- fractions taken as moles give the variables back -/
  inverse : ∀ r, C.toR (C.fromR r) = r
  /-- fractions sum to one -/
  sum_one : ∀ r, ∑ i, C.fromR r i = 1
  /-- only proportions matter -/
  scale : ∀ m, ∑ i, m i ≠ 0 → ∀ c, c ≠ 0 → C.toR (fun i => c * m i) = C.toR m
  first : ∀ m, ∑ i, m i ≠ 0 → ∀ i j, Partial (fun m => C.toR m i) m j (C.dm m i j)
  second : ∀ m, ∑ i, m i ≠ 0 → ∀ i j k, Partial (fun m => C.dm m i j) m k (C.d2m m i j k)
  third : ∀ m, ∑ i, m i ≠ 0 → ∀ i j k l, Partial (fun m => C.d2m m i j k) m l (C.d3m m i j k l)
  jacobian : ∀ r i j, Partial (fun r => C.fromR r i) r j (C.dr i j)

/-! ### Lemmas -/

/-- Indicator. -/
def ind (p : Prop) [Decidable p] : ℝ := if p then 1 else 0

theorem ite_ind (p : Prop) [Decidable p] (a b : ℝ) : (if p then a else b) = b + (a - b) * ind p := by
  unfold ind; split_ifs <;> ring

theorem sum_ind {na : ℕ} (m : Fin na → ℝ) (c : ℝ) (i : Fin na) : ∑ j, c * ind (j = i) * m j = c * m i := by
  simp [ind]

theorem lin_ind1 {na : ℕ} (m : Fin na → ℝ) (c : ℝ) (i : Fin na) : lin (fun j => c * ind (j = i)) m = c * m i := by
  simp [lin, sum_ind]

theorem lin_ind2 {na : ℕ} (m : Fin na → ℝ) (c d : ℝ) (i k : Fin na) :
    lin (fun j => c * ind (j = i) + d * ind (j = k)) m = c * m i + d * m k := by
  simp [lin, add_mul, sum_add_distrib, sum_ind]

theorem fin_sum_1 (f : Fin 1 → ℝ) : ∑ i, f i = f 0 := Fin.sum_univ_one f
theorem fin_sum_2 (f : Fin 2 → ℝ) : ∑ i, f i = f 0 + f 1 := Fin.sum_univ_two f
theorem fin_sum_3 (f : Fin 3 → ℝ) : ∑ i, f i = f 0 + f 1 + f 2 := Fin.sum_univ_three f
theorem fin_sum_4 (f : Fin 4 → ℝ) : ∑ i, f i = f 0 + f 1 + f 2 + f 3 := Fin.sum_univ_four f
theorem fin_sum_5 (f : Fin 5 → ℝ) : ∑ i, f i = f 0 + f 1 + f 2 + f 3 + f 4 := Fin.sum_univ_five f
theorem fin_sum_6 (f : Fin 6 → ℝ) : ∑ i, f i = f 0 + f 1 + f 2 + f 3 + f 4 + f 5 := Fin.sum_univ_six f
theorem fin_sum_7 (f : Fin 7 → ℝ) : ∑ i, f i = f 0 + f 1 + f 2 + f 3 + f 4 + f 5 + f 6 := Fin.sum_univ_seven f

theorem Conversion.consistent_of_linear {na nr : ℕ} (C : Conversion na nr) (A : Fin nr → Fin na → ℝ)
    (c : Fin nr → ℝ)
    (h0 : ∀ m, total m ≠ 0 → ∀ i, C.toR m i = q0 (A i) m + c i)
    (h1 : ∀ m, total m ≠ 0 → ∀ i j, C.dm m i j = q1 (A i) m j)
    (h2 : ∀ m, total m ≠ 0 → ∀ i j k, C.d2m m i j k = q2 (A i) m j k)
    (h3 : ∀ m, total m ≠ 0 → ∀ i j k l, C.d3m m i j k l = q3 (A i) m j k l)
    (hrt : ∀ m, total m ≠ 0 → ∀ i, C.fromR (C.toR m) i = m i / total m)
    (hsum : ∀ r, ∑ i, C.fromR r i = 1)
    (hinv : ∀ r, total (C.fromR r) ≠ 0 → C.toR (C.fromR r) = r)
    (hdr : ∀ r i, C.fromR r i = C.fromR (fun _ => 0) i + ∑ j, C.dr i j * r j) : C.Consistent where
  roundtrip := hrt
  inverse r := hinv r (by have := hsum r; change ∑ i, _ ≠ 0; rw [this]; norm_num)
  sum_one := hsum
  scale m hm k hk := by
    have hm' : total m ≠ 0 := hm
    have ht : total (fun i => k * m i) = k * total m := by simp [total, mul_sum]
    have hl : ∀ a : Fin na → ℝ, lin a (fun i => k * m i) = k * lin a m := by
      intro a; simp only [lin, mul_sum]; exact sum_congr rfl fun i _ => by ring
    funext i
    rw [h0 m hm, h0 _ (by rw [ht]; exact mul_ne_zero hk hm')]
    simp only [q0, ht, hl]
    rw [mul_div_mul_left _ _ hk]
  first m hm i j := by
    rw [h1 m hm]
    refine partial_congr hm (g := fun m => q0 (A i) m + c i) (fun m h => h0 m h i) ?_
    exact HasDerivAt.add_const (c i) (q0_partial (A i) m hm j)
  second m hm i j k := by
    rw [h2 m hm]
    exact partial_congr hm (fun m h => h1 m h i j) (q1_partial (A i) m hm j k)
  third m hm i j k l := by
    rw [h3 m hm]
    exact partial_congr hm (fun m h => h2 m h i j k) (q2_partial (A i) m hm j k l)
  jacobian r i j := by
    have e : (fun r => C.fromR r i) = fun r => C.fromR (fun _ => 0) i + lin (C.dr i) r := by
      funext r; exact hdr r i
    rw [e]
    exact (deriv_lin (C.dr i) r j).const_add _

'''
def body(ns,NR,NA,A,c,EX):
    def row(i,j): return '('+' + '.join('%s * ind (%s = %d)'%(co(q),j,n) for n,q in enumerate(A[i]) if q!=0)+')'
    def ln(i): return '('+' + '.join('%s * m %d'%(co(q),n) for n,q in enumerate(A[i]) if q!=0)+')'
    o=''
    # toR
    o+='  · intro m hm i\n    have e : %s.conv.toR m i = %s.toR m i := rfl\n    rw [e, %s.toR, q0, %s.lin_rows%s]\n    fin_cases i\n'%(ns,ns,ns,ns,'' if EX['ifs'] else ', if_pos hm')
    for i in range(NR):
        o+='    · change (%s : ℝ) = %s / total m + %s\n'%(EX['r'][i],ln(i),co(c[i]))
        o+='      %sring\n'%('rw [if_pos hm]; ' if EX['ifs'] else '')
    for nm,args,q,rhs in (('dm','j','q1',lambda i:'%s / total m - %s / total m ^ 2'%(row(i,'j'),ln(i))),
        ('d2m','j k','q2',lambda i:'2 * %s / total m ^ 3 - %s / total m ^ 2 - %s / total m ^ 2'%(ln(i),row(i,'j'),row(i,'k'))),
        ('d3m','j k l','q3',lambda i:'-6 * %s / total m ^ 4 + 2 * %s / total m ^ 3 + 2 * %s / total m ^ 3 + 2 * %s / total m ^ 3'%(ln(i),row(i,'j'),row(i,'k'),row(i,'l')))):
        o+='  · intro m hm i %s\n    have e : %s.conv.%s m i %s = %s.%s m %s i := rfl\n    rw [e, %s.%s, if_neg hm, %s, %s.lin_rows]\n    fin_cases i\n'%(args,ns,nm,args,ns,nm,args,ns,nm,q,ns)
        for i in range(NR):
            o+='    · change (%s : ℝ) = %s\n      simp only [ite_ind]; ring\n'%(EX[nm][i],rhs(i))
    # roundtrip
    def sub(ex):
        import re
        return re.sub(r'\br (\d+)',lambda mm: '('+rr[int(mm.group(1))]+')',ex)
    rr=[]
    for i in range(NR):
        t=EX['r'][i]
        if EX['ifs']:
            t=t[len('(if total m ≠ 0 then '):t.rindex(' else')]
        rr.append(t)
    sm=' + '.join('m %d'%i for i in range(NA))
    o+='  · intro m hm i\n    have ht : total m = %s := fin_sum_%d m\n'%(sm,NA)
    o+='    have e : %s.conv.fromR (%s.conv.toR m) i = %s.fromR ![%s] i := by\n      change %s.fromR (%s.toR m) i = _\n      simp only [%s.toR, if_pos hm]\n    rw [e]\n    fin_cases i\n'%(ns,ns,ns,', '.join(rr),ns,ns,ns)
    for i in range(NA):
        o+='    · change (%s : ℝ) = m %d / total m\n      field_simp%s\n      try ring\n'%(sub(EX['x'][i]),i,'')
        if i==dep(EX,NA): o=o[:-len('      try ring\n')]+'      rw [ht]; ring\n'
    # sum
    o+='  · intro r\n    change ∑ i, %s.fromR r i = 1\n    rw [fin_sum_%d]\n    change (%s : ℝ) = 1\n    ring\n'%(ns,NA,' + '.join('(%s)'%x for x in EX['x']))
    # inverse
    o+='  · intro r _\n    have ht : total (%s.fromR r) = 1 := by\n      change ∑ i, %s.fromR r i = 1\n      rw [fin_sum_%d]\n      change (%s : ℝ) = 1\n      ring\n'%(ns,ns,NA,' + '.join('(%s)'%x for x in EX['x']))
    o+='    have h1 : (1 : ℝ) ≠ 0 := one_ne_zero\n    funext i\n    change %s.toR (%s.fromR r) i = r i\n    simp only [%s.toR, ht, if_pos h1]\n    fin_cases i\n'%(ns,ns,ns)
    import re
    for i in range(NR):
        ex=re.sub(r'\bm (\d+)',lambda mm:'('+EX['x'][int(mm.group(1))]+')',rr[i]).replace('total m','1')
        o+='    · change (%s : ℝ) = r %d\n      ring\n'%(ex,i)
    # jac
    o+='  · intro r i\n    change %s.fromR r i = %s.fromR (fun _ => 0) i + ∑ j, %s.dr i j * r j\n    rw [fin_sum_%d]\n    fin_cases i\n'%(ns,ns,ns,NR)
    for i in range(NA):
        z=re.sub(r'\br (\d+)','0',EX['x'][i])
        o+='    · change (%s : ℝ) = (%s) + (%s)\n      ring\n'%(EX['x'][i],z,' + '.join('%s * r %d'%('(%s)'%EX['dr'][i][j],j) for j in range(NR)))
    return o
def dep(EX,NA):
    # index of the dependent fraction: the longest expression with a leading constant
    best=max(range(NA),key=lambda i:len(EX['x'][i])); return best
def co(q):
    return '(%d/%d)'%(q.numerator,q.denominator) if q.denominator!=1 else ('(%d)'%q if q<0 else '%d'%q)
M=[('Olivine','olivine.c',5,6),('Cpx','clinopyroxene.c',6,7),('Opx','orthopyroxene.c',6,7),('Amphibole','amphibole.c',2,3),('Cummingtonite','cummingtonite.c',1,2),('OrthoOxide','ortho-oxide.c',2,3),('Rhombohedral','rhombohedral.c',3,4),('Spinel','spinel.c',4,5),('Nepheline','nepheline.c',3,4),('Kalsilite','kalsilite.c',3,4),('Majorite','majorite.c',3,4)]
import sys
sel=sys.argv[1:] 
s=HEAD
for ns,f,NR,NA in M:
    if sel and ns not in sel: continue
    out,A,c,EX=gen(ns,f,NR,NA,ns)
    s+='/-! ### %s -/\n\n'%ns+'\n\n'.join(out)+'\n\n'
    s+='/-- The conversions of %s. -/\ndef %s.conv : Conversion %d %d where\n  toR := %s.toR\n  dm m i j := %s.dm m j i\n  d2m m i j k := %s.d2m m j k i\n  d3m m i j k l := %s.d3m m j k l i\n  fromR := %s.fromR\n  dr := %s.dr\n\n'%(f,ns,NA,NR,*[ns]*6)
    rows=[]
    for i in range(NR):
        t=[(j,q) for j,q in enumerate(A[i]) if q!=0]
        rows.append('fun j => '+' + '.join('%s * ind (j = %d)'%(co(q),j) for j,q in t))
    s+='/-- Coefficients of the independent variables (used in the proof only). -/\ndef %s.rows : Fin %d → Fin %d → ℝ :=\n  ![%s]\n\n'%(ns,NR,NA,',\n    '.join(rows))
    s+='theorem %s.lin_rows (m : Fin %d → ℝ) : ∀ i, lin (%s.rows i) m = (![%s] : Fin %d → ℝ) i := by\n  intro i\n  fin_cases i\n'%(ns,NA,ns,', '.join(' + '.join('%s * m %d'%(co(q),j) for j,q in enumerate(A[i]) if q!=0) for i in range(NR)),NR)
    s+=''.join('  · exact lin_ind%d m %s %s\n'%(len(t),' '.join(co(q) for j,q in t),' '.join(str(j) for j,q in t)) for t in [[(j,q) for j,q in enumerate(A[i]) if q!=0] for i in range(NR)])+'\n'
    low=ns[0].lower()+ns[1:]
    cs='![%s]'%', '.join(co(q) for q in c)
    s+='''/-- **C25.** The composition conversions of `@F` are consistent: moles → independent variables → mole
fractions and back agree, fractions sum to one, only proportions matter, and the Jacobian, the second and the
third derivatives returned are the derivatives of the conversions. -/
theorem C25_@L : @N.conv.Consistent := by
  refine Conversion.consistent_of_linear _ @N.rows @C ?_ ?_ ?_ ?_ ?_ ?_ ?_ ?_
@BODY
'''.replace('@F',f).replace('@L',low).replace('@N',ns).replace('@C',cs).replace('@BODY',body(ns,NR,NA,A,c,EX))

s+='''/-! ### The phases of `Compo` in the same terms -/

/-- The conversions of the phases of `Compo` (dependent end member `dep`). -/
def simpleConv {nr : ℕ} (dep : Fin (nr + 1)) : Conversion (nr + 1) nr where
  toR := toR dep
  dm := dm dep
  d2m := d2m dep
  d3m := d3m dep
  fromR := fromR dep
  dr := dr dep

/-- **C25.** The same consistency for the phases whose variables are all mole fractions but one (leucite,
feldspar, garnet, biotite, the liquid, melilite, alloys, ...). -/
theorem C25_simple {nr : ℕ} (dep : Fin (nr + 1)) : (simpleConv dep).Consistent where
  roundtrip m hm i := by
    have h := C25_roundtrip dep m hm
    exact (congrFun h.1 i).trans (h.2 i)
  inverse := C25_inverse dep
  sum_one r := (C25_sum_one dep (fun _ => 1) (by simp; positivity) r).2
  scale m _ c hc := (C25_scale dep m c hc).1
  first m hm i j := (C25_derivatives dep m hm i j j j).1
  second m hm i j k := (C25_derivatives dep m hm i j k k).2.1
  third m hm i j k l := (C25_derivatives dep m hm i j k l).2.2
  jacobian := C25_dr dep

/-! ### Consequences for the engine's gradients and Hessians -/

/-- **C23.** With any consistent conversion, the gradient and Hessian the engine assembles are the first and
second derivatives of total moles times the molar property, for every twice differentiable molar property. -/
theorem C23_any_phase {na nr : ℕ} (C : Conversion na nr) (hC : C.Consistent) (P : (Fin nr → ℝ) → ℝ)
    (dP : (Fin nr → ℝ) → Fin nr → ℝ) (d2P : Fin nr → Fin nr → ℝ) (m : Fin na → ℝ) (h0 : ∑ i, m i ≠ 0)
    (h1 : Grad P (C.toR m) (dP (C.toR m))) (h2 : ∀ i, Grad (fun r => dP r i) (C.toR m) (d2P i)) (j l : Fin na) :
    Partial (extensive P C.toR) m j (gradient (P (C.toR m)) (dP (C.toR m)) (∑ i, m i) (C.dm m) j) ∧
    Partial (fun m => gradient (P (C.toR m)) (dP (C.toR m)) (∑ i, m i) (C.dm m) j) m l
      (hessian (dP (C.toR m)) d2P (∑ i, m i) (C.dm m) (C.d2m m) j l) :=
  ⟨C23_gradient P C.toR m (dP (C.toR m)) (C.dm m) h1 (hC.first m h0) j,
   C23_hessian P C.toR m dP C.dm d2P (C.d2m m) h1 (hC.first m h0) h2 (hC.second m h0) j l⟩

/-! ### Olivine: rounding of tiny fractions -/

/-- olivine.c 2695. -/
def Olivine.snap (ε : ℝ) (x : Fin 6 → ℝ) (i : Fin 6) : ℝ := if |x i| < ε then 0 else x i

/-- **C25.** The olivine mole fractions returned differ from the exact ones by less than `DBL_EPSILON`, and a
fraction not below `DBL_EPSILON` is exact. -/
theorem C25_olivine_snap (ε : ℝ) (hε : 0 < ε) (m : Fin 6 → ℝ) (h0 : ∑ i, m i ≠ 0) (i : Fin 6) :
    |Olivine.snap ε (Olivine.fromR (Olivine.toR m)) i - m i / ∑ i, m i| < ε ∧
    (ε ≤ |m i / ∑ i, m i| → Olivine.snap ε (Olivine.fromR (Olivine.toR m)) i = m i / ∑ i, m i) := by
  have e : Olivine.fromR (Olivine.toR m) i = m i / ∑ i, m i := C25_olivine.roundtrip m h0 i
  simp only [Olivine.snap, e]
  constructor
  · split_ifs with h
    · rwa [zero_sub, abs_neg]
    · rwa [sub_self, abs_zero]
  · intro h
    rw [if_neg (not_lt.mpr h)]

/-- A concrete pyroxene: 0.5 mol diopside, 0.25 mol of the second and of the seventh end member. -/
example : ∃ m : Fin 7 → ℝ, ∑ i, m i ≠ 0 ∧ Cpx.toR m 1 = 1 / 8 ∧ Cpx.toR m 2 = -1 / 8 ∧ Cpx.toR m 5 = 1 / 4 := by
  have ht : total (![1/2, 1/4, 0, 0, 0, 0, 1/4] : Fin 7 → ℝ) = 1 := by
    rw [total, fin_sum_7]
    change (1 : ℝ) / 2 + 1 / 4 + 0 + 0 + 0 + 0 + 1 / 4 = 1
    norm_num
  have h1 : (1 : ℝ) ≠ 0 := one_ne_zero
  refine ⟨![1/2, 1/4, 0, 0, 0, 0, 1/4], ?_, ?_, ?_, ?_⟩
  · change total _ ≠ 0
    rw [ht]; exact h1
  · simp only [Cpx.toR, ht, if_pos h1]
    change ((0 : ℝ) + 1 / 4 / 2) / 1 = 1 / 8
    norm_num
  · simp only [Cpx.toR, ht, if_pos h1]
    change ((0 : ℝ) - 1 / 4 / 2) / 1 = -1 / 8
    norm_num
  · simp only [Cpx.toR, ht, if_pos h1]
    change ((1 : ℝ) / 4) / 1 = 1 / 4
    norm_num

end

end Magma.Thermo.Compo
'''
open('/verif/lean/Verif/Thermo/ConvTables.lean','w').write(s)
