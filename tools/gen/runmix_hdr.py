import re
def hdr(title): return '''import Verif.Thermo.Mixing
import Mathlib.Tactic.FinCases

/-!
%s Generated by /verif/tools/gen/genmix.py from the macros of /repo/sources: one definition per macro, with the
macros it mentions as definitions (the generator checks that this has the value of C's textual substitution). The
theorem `C24_*` of each phase says that the outputs of its mixing functions fit together (`Mix.Consistent`) wherever
the site fractions are above `DBL_EPSILON`. Simplification: `double` is the real numbers.
-/

set_option linter.unusedVariables false
set_option linter.unusedTactic false
set_option linter.unreachableTactic false
set_option linter.unusedSimpArgs false

namespace Magma.Thermo.Mixing

open Magma.Thermo.Extensive Magma.Thermo.Compo

noncomputable section

'''%title
END='end\n\nend Magma.Thermo.Mixing\n'
def tail(p,pt):
    n=p.name; l=n[0].lower()+n[1:]
    s='''/-- **C24.** %(n)s (%(f)s): derivatives, entropy, enthalpy, heat capacity and volume of mixing fit together. -/
theorem C24_%(l)s : %(n)s.mix.Consistent (Interior %(n)s.raw) := %(n)s.consistent

/-- The interior contains the composition %(pts)s. -/
example : Interior %(n)s.raw %(pt)s := by
  intro k
  fin_cases k
'''%dict(n=n,f=p.f,l=l,pt='!['+', '.join(pt)+']',pts=', '.join(pt))
    for x in p.sn:
        e=re.sub(r'\br(\d)\b',lambda m:'('+pt[int(m.group(1))]+')',p.pr(p.raw(x)))
        s+='  · change (%s : ℝ) > eps; unfold eps; norm_num\n'%e
    s+='''
/-- **C24.** The chemical potentials `act*` returns are the derivatives of the total Gibbs energy of mixing. -/
theorem C24_%(l)s_potentials (t p : ℝ) (m : Fin %(na)d → ℝ) (h0 : ∑ i, m i ≠ 0)
    (hr : Interior %(n)s.raw (toR %(n)s.dep m)) (i : Fin %(na)d) :
    Partial (fun m => (∑ i, m i) * %(n)s.mix.g t p (toR %(n)s.dep m)) m i
      (mu %(n)s.mix %(n)s.dep t p (toR %(n)s.dep m) i) :=
  C24_potential_is_derivative _ _ %(n)s.consistent _ t p m h0 hr i

/-- **C24.** The derivatives of the activities `act*` returns are their derivatives. -/
theorem C24_%(l)s_activities (t p : ℝ) (r : Fin %(nr)d → ℝ) (hr : Interior %(n)s.raw r) (i : Fin %(na)d)
    (k : Fin %(nr)d) : Partial (fun r => act %(n)s.mix %(n)s.dep t p r i) r k (dact %(n)s.mix %(n)s.dep t p r i k) :=
  C24_activity_derivative _ _ %(n)s.consistent (isOpen_interior _ %(n)s.raw_continuous) _ t p r hr i k

'''%dict(n=n,l=l,na=p.na,nr=p.nr)
    return s
