#!/usr/bin/env python3
"""Writes lean/Verif/Thermo/ElementRows.lean: the atoms in every end-member formula of the solution tables."""
import re,os
R=os.path.join(os.path.dirname(__file__),'..','..','lean','Verif')
s=open(os.path.join(R,'Support','TableData.lean')).read()
rows=dict(re.findall(r'\(false, "([^"]+)", (\[.*\])\),?\n',s))
def parse(items):
    out=[]
    def num(d):
        t=''.join(re.findall(r"'(.)'",d))
        if t=='': return '1'
        if '.' in t:
            a,b=t.split('.'); return f"({int(a+b)} / {10**len(b)})"
        return str(int(t))
    pos=0
    for m in re.finditer(r"\.atom ⟨(\d+), (\[[^\]]*\])⟩|\.group \[((?:⟨\d+, \[[^\]]*\]⟩(?:, )?)*)\] (\[[^\]]*\])",items):
        if m.group(1): out.append((m.group(1),num(m.group(2))))
        else:
            mul=num(m.group(4))
            for a in re.finditer(r"⟨(\d+), (\[[^\]]*\])⟩",m.group(3)):
                n=num(a.group(2)); out.append((a.group(1), mul if n=='1' else f"{n} * {mul}"))
    return out
o='''import Verif.Support.Tables

/-!
Atoms in the end-member formulas of the tables of solids, read by the program's own formula parser. Written by tools/gen/genelements.py.
-/

namespace Magma.Thermo.Elements

open Magma.Support.Formula Magma.Support.Tables

/-- Number of atoms of element `e` that the program reads from the formula `f` (melts_support.c 305-315). -/
def atomsIn (f : String) (e : ℕ) : ℚ := elemRow f.toList e

/-- Value of a list of atoms. -/
def ev (l : List (ℕ × ℚ)) (e : ℕ) : ℚ := (l.map fun p => if p.1 = e then p.2 else 0).sum

theorem atomsIn_eq (s : String) (f : List Item) (l : List (ℕ × ℚ)) (h : rowOk (s, f) = true) (ha : atomsOf f = l) (e : ℕ) :
    atomsIn s e = ev l e := by
  unfold atomsIn ev
  rw [(row_count (s, f) h).1, count_atoms, ha]

'''
for i,(f,it) in enumerate(sorted(rows.items())):
    l='['+', '.join(f'({a}, {n})' for a,n in parse(it))+']'
    o+=f'@[simp] theorem row{i} (e : ℕ) : atomsIn "{f}" e = ev {l} e :=\n  atomsIn_eq _ {it} _ (by decide +kernel) (by decide +kernel) e\n\n'
o+='/-- All of them. -/\ntheorem rows_all : True := trivial\n' if False else ''
o+='end Magma.Thermo.Elements\n'
open(os.path.join(R,'Thermo','ElementRows.lean'),'w').write(o)
print(len(rows),[f for f in sorted(rows)])
