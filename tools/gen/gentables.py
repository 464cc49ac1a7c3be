#!/usr/bin/env python3
"""Generates lean/Verif/Support/TableData.lean from the tables of /repo: the rows of the oxide, liquid and solid tables in
order (RHYOLITE_ADJUSTMENTS defined, as in every Makefile target of easyMelts), the elements they use and two inverses."""
import re,os
from fractions import Fraction as Fr
root=os.path.dirname(os.path.dirname(os.path.dirname(os.path.abspath(__file__))))
def pre(p):
    out=[];st=[]
    for l in open(p):
        s=l.strip()
        m=re.match(r'#\s*(ifdef|ifndef)\s+(\w+)',s)
        if m: st.append((m.group(2)=='RHYOLITE_ADJUSTMENTS',m.group(1)=='ifdef')); out.append('\n' if st[-1][0] else l); continue
        if re.match(r'#\s*else',s) and st and st[-1][0]: st[-1]=(True,not st[-1][1]); out.append('\n'); continue
        if re.match(r'#\s*endif',s):
            x=st.pop(); out.append('\n'); continue
        out.append(l if all(v for k,v in st if k) else '\n')
    return ''.join(out)
liq=pre('/repo/includes/liq_struct_data.h'); sol=pre('/repo/includes/sol_struct_data.h')
def seg(t,name,kw):
    i=t.index(f'{kw} {name}[]'); j=t.index('\n};',i); return t[i:j]
ox=re.findall(r'\{\s*"([^"]*)"\s*,',seg(liq,'bulkSystem','BulkSystem'))[:-1]
L={n:re.findall(r'\{\s*"([^"]*)"\s*,\s*NULL',seg(liq,n,'Liquid')) for n in ['meltsLiquid','meltsFluidLiquid','pMeltsLiquid']}
S={n:[(a,b,c) for a,b,c in re.findall(r'"([^"]*)"\s*,\s*(PHASE|COMPONENT)\s*,\s*"([^"]*)"',seg(sol,n,'Solids'))] for n in ['meltsSolids','meltsFluidSolids','pMeltsSolids']}
ms=open('/repo/sources/melts_support.c').read()
E=re.findall(r'\{\s*"([^"]*)"\s*,\s*"([^"]*)"\s*,\s*([0-9.]+)\s*\}',ms[ms.index('const ElementsData elements'):ms.index('const int ne =')])
sym={s:i for i,(n,s,w) in enumerate(E)}
def parse(f):
    out=[];i=0
    pat=re.compile(r'([A-Z][a-z]?[0-9.\-]*)|\(((?:[A-Z][a-z]?[0-9.\-]*)*)\)([0-9.\-]*)')
    while i<len(f):
        m=pat.match(f,i); assert m and m.end()>i,(f,i)
        if m.group(1): out.append((m.group(1),))
        else: out.append((re.findall(r'[A-Z][a-z]?[0-9.\-]*',m.group(2)),m.group(3)))
        i=m.end()
    return out
def at(a):
    m=re.fullmatch(r'([A-Z][a-z]?)([0-9.\-]*)',a); return sym[m.group(1)],m.group(2)
def cnt(f):
    d={}
    for it in parse(f):
        for a in ([it[0]] if len(it)==1 else it[0]):
            e,n=at(a); d[e]=d.get(e,Fr(0))+Fr(n or 1)*(1 if len(it)==1 else Fr(it[1] or 1))
    return d
def chars(s): return '['+', '.join(f"'{c}'" for c in s)+']'
def atom(a): e,n=at(a); return f'⟨{e}, {chars(n)}⟩'
def items(f):
    return '['+', '.join('.atom '+atom(it[0]) if len(it)==1 else '.group ['+', '.join(map(atom,it[0]))+'] '+chars(it[1]) for it in parse(f))+']'
els=[]
for o in ox:
    for e in cnt(o):
        if e not in els: els.append(e)
assert len(els)==19 and len(ox)==19
def inv(M):
    n=len(M); A=[[Fr(x) for x in r]+[Fr(int(i==j)) for j in range(n)] for i,r in enumerate(M)]
    for c in range(n):
        p=next(r for r in range(c,n) if A[r][c]!=0); A[c],A[p]=A[p],A[c]
        v=A[c][c]; A[c]=[x/v for x in A[c]]
        for r in range(n):
            if r!=c and A[r][c]!=0:
                k=A[r][c]; A[r]=[x-k*y for x,y in zip(A[r],A[c])]
    return [r[n:] for r in A]
def mat(fs): return [[cnt(f).get(e,Fr(0)) for e in els] for f in fs]
def q(f): return str(f.numerator) if f.denominator==1 else f'{f.numerator} / {f.denominator}'
assert L['meltsFluidLiquid'][:19]==L['meltsLiquid']
for n in S:
    for a,b,c in S[n]: assert set(cnt(c))<=set(els),c
o=['''import Verif.Support.Formula

/-!
The tables of /repo in order, as they are initialised before `InitComputeDataStruct` runs. Written by tools/gen/gentables.py.
-/

namespace Magma.Support.Tables

open Magma.Support.Formula
''']
def deft(name,doc,fs):
    o.append(f'/-- {doc} -/\ndef {name} : List (String × List Item) := [')
    o.append(',\n'.join(f'  ("{f}", {items(f)})' for f in fs)+']\n')
deft('oxides','`bulkSystem[]`, liq_struct_data.h 174-196: labels of the first `nc` rows.',ox)
deft('meltsLiquid','`meltsLiquid[]`, liq_struct_data.h 525-833 (and the first `nlc` rows of `meltsFluidLiquid[]`, 835-1159): labels.',L['meltsLiquid'])
deft('pMeltsLiquid','`pMeltsLiquid[]`, liq_struct_data.h 1221-1541: labels.',L['pMeltsLiquid'])
deft('fluidSpecies','`meltsFluidLiquid[]`, liq_struct_data.h 835-1159: the rows after the first `nlc`, which are species, not components.',L['meltsFluidLiquid'][19:])
def defs(name,doc,rows):
    o.append(f'/-- {doc} -/\ndef {name} : List (Bool × String × List Item) := [')
    o.append(',\n'.join(f'  ({"true" if b=="PHASE" else "false"}, "{c}", {items(c)})' for a,b,c in rows)+']\n')
defs('meltsSolids','`meltsSolids[]`, sol_struct_data.h 2361-3718: is the row a PHASE, its formula.',S['meltsSolids'])
defs('meltsFluidSolids','`meltsFluidSolids[]`, sol_struct_data.h 3720-5202.',S['meltsFluidSolids'])
defs('pMeltsSolids','`pMeltsSolids[]`, sol_struct_data.h 5204-6466.',S['pMeltsSolids'])
o.append('/-- The elements the oxides consist of, by number. -/\ndef els : List ℕ := ['+', '.join(map(str,els))+']\n')
def sparse(name,doc,M):
    o.append(f'/-- {doc} -/\ndef {name} : List (List (ℕ × ℚ)) := [')
    o.append(',\n'.join('  ['+', '.join(f'({j}, {q(x)})' for j,x in enumerate(r) if x!=0)+']' for r in M)+']\n')
sparse('oxInv','Row `k`: element `els[k]` as a combination of oxides (position, amount).',inv(mat(ox)))
sparse('meltsInv','Row `k`: element `els[k]` as a combination of components of `meltsLiquid`.',inv(mat(L['meltsLiquid'])))
sparse('pMeltsInv','Row `k`: element `els[k]` as a combination of components of `pMeltsLiquid`.',inv(mat(L['pMeltsLiquid'])))
o.append('end Magma.Support.Tables')
open(root+'/lean/Verif/Support/TableData.lean','w').write('\n'.join(o)+'\n')
mn=min(abs(x) for n in S for a,b,c in S[n] for I in (inv(mat(ox)),inv(mat(L['meltsLiquid'])),inv(mat(L['pMeltsLiquid']))) for x in [sum(cnt(c).get(e,Fr(0))*I[k][j] for k,e in enumerate(els)) for j in range(19)] if x!=0)
print(len(els),[len(S[n]) for n in S],'min',mn)
