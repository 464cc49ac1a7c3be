#!/usr/bin/env python3
"""Generates lean/Verif/Support/FormulaTables.lean from the tables of /repo."""
import re,os
root=os.path.dirname(os.path.dirname(os.path.dirname(os.path.abspath(__file__))))
ms=open('/repo/sources/melts_support.c').read()
E=re.findall(r'\{\s*"([^"]*)"\s*,\s*"([^"]*)"\s*,\s*([0-9.]+)\s*\}',ms[ms.index('const ElementsData elements'):ms.index('const int ne =')])
sym={s:i for i,(n,s,w) in enumerate(E)}
from fractions import Fraction
def q(w):
    f=Fraction(w.rstrip('.') if w.endswith('.') else w)
    return str(f.numerator) if f.denominator==1 else f'{f.numerator} / {f.denominator}'
sol=open('/repo/includes/sol_struct_data.h').read()
F=[x[2] for x in re.findall(r'"([^"]*)"\s*,\s*(PHASE|COMPONENT)\s*,\s*"([^"]*)"',sol)]
liq=open('/repo/includes/liq_struct_data.h').read()
ox=re.findall(r'\{\s*"([^"]*)"\s*,\s*(?:OTHER|FEO|FE2O3)',liq)
L=[x for x in re.findall(r'\{\s*"([^"]*)"\s*,\s*NULL\s*,',liq)]
print(len(E),len(F),ox,len(L))
ox=ox[:-1] # nc = rows - 1
names=[]
for f in ox+L+F:
    if f and f not in names: names.append(f)
def chars(s): return '['+', '.join(f"'{c}'" for c in s)+']'
def atom(s):
    m=re.fullmatch(r'([A-Z][a-z]?)([0-9.\-]*)',s)
    return f'⟨{sym[m.group(1)]}, {chars(m.group(2))}⟩'
def items(f):
    out=[];i=0
    pat=re.compile(r'([A-Z][a-z]?[0-9.\-]*)|\(((?:[A-Z][a-z]?[0-9.\-]*)*)\)([0-9.\-]*)')
    while i<len(f):
        m=pat.match(f,i); assert m and m.end()>i,(f,i)
        if m.group(1): out.append('.atom '+atom(m.group(1)))
        else:
            ats=re.findall(r'[A-Z][a-z]?[0-9.\-]*',m.group(2))
            out.append('.group ['+', '.join(map(atom,ats))+'] '+chars(m.group(3)))
        i=m.end()
    return '['+', '.join(out)+']'
o=[]
o.append('''import Verif.Support.Formula
import Mathlib.Data.Rat.Defs
import Mathlib.Data.List.GetD

/-!
The table of elements, /repo/sources/melts_support.c 140-250, and the formulas of the tables of oxides and liquid components
(/repo/includes/liq_struct_data.h) and solids (/repo/includes/sol_struct_data.h), each once, taken apart into elements and
numbers. Written by tools/gen/genformula.py.
-/

namespace Magma.Support.Formula

/-- `elements[]`, melts_support.c 140-249: symbol and atomic weight. -/
def rows : List (List Char × ℚ) := [''')
o.append(',\n'.join(f'  ({chars(s)}, {q(w)})' for n,s,w in E)+']')
o.append('''
/-- `elements`, `ne`, melts_support.c 140-250. -/
def elements : Elements ℚ where
  ne := rows.length
  sym j := (rows.getD j ([], 0)).1
  wt j := (rows.getD j ([], 0)).2
''')
N=60
parts=[names[i:i+N] for i in range(0,len(names),N)]
for k,p in enumerate(parts):
    o.append(f'/-- Formulas of the tables with their parts, {k+1} of {len(parts)}. -/')
    o.append(f'def formulas{k} : List (String × List Item) := [')
    o.append(',\n'.join(f'  ("{f}", {items(f)})' for f in p)+']\n')
o.append('/-- The formulas of liq_struct_data.h and sol_struct_data.h. -/')
o.append('def formulas : List (String × List Item) := '+' ++ '.join(f'formulas{k}' for k in range(len(parts))))
o.append('\nend Magma.Support.Formula')
open(root+'/lean/Verif/Support/FormulaTables.lean','w').write('\n'.join(o)+'\n')
print(len(names))
