#!/usr/bin/env python3
"""Generate lean/Verif/Quad/Tables.lean from the literals of elements/elements.cpp."""
import re, os
SRC='/repo/elements/elements.cpp'
txt=open(SRC).read()
def body(fn):
    i=txt.index('void '+fn+'(')
    j=txt.index('{',i);d=0;k=j
    while True:
        if txt[k]=='{':d+=1
        if txt[k]=='}':
            d-=1
            if d==0:break
        k+=1
    return i,txt[j:k],txt.count('\n',0,i)+1,txt.count('\n',0,k)+1
def lean(e):
    e=e.strip().replace(' ','')
    m=re.fullmatch(r'([-+]?)(\d+)\.(\d+)(?:E([-+]\d+))?',e)
    if m:
        sg,ip,fp,ex=m.groups()
        ex=int(ex or 0)
        dig=int(ip+fp); sc=len(fp)-ex
        while dig%10==0 and dig and sc>0: dig//=10; sc-=1
        if dig==0: return '0'
        if sc==0: return ('-' if sg=='-' else '')+str(dig)
        return 'dec (%s%d) %d'%('-' if sg=='-' else '',dig,sc)
    if re.fullmatch(r'\d+\.0/\d+\.0',e):
        return e.replace('.0','')
    if re.fullmatch(r'[-+*/().0-9sqrt]+',e):
        e=e.replace('sqrt(','√(').replace('.0','')
        e=re.sub(r'√\((\d+)\)',r'√\1',e)
        return e
    raise Exception(e)
out=['''import Mathlib.Analysis.Real.Sqrt
import Verif.Mem

/-!
# The tabulated quadrature rules of `elements/elements.cpp`

Generated by `tools/gen_quad.py` from the literals of the code.  A decimal literal `d.ddd` is the exact
decimal number (`dec m e` is `m / 10 ^ e`), not its nearest double.
`swage/swage.cpp` contains a copy of the Lobatto node table (`lobatto_nodes_1D_tmp`, 63-327) with the same
literals.
-/

namespace Verif.Quad

/-- A decimal literal. -/
def dec (m : ℤ) (e : ℕ) : ℚ := m / 10 ^ e
''']
for fn,arr,nm in [('lobatto_nodes_1D','lob_nodes_1D','lobNodes'),('lobatto_weights_1D','lob_weights_1D','lobWeights'),('legendre_nodes_1D','leg_nodes_1D','legNodes'),('legendre_weights_1D','leg_weights_1D','legWeights')]:
    i,b,l0,l1=body(fn)
    tabs={}
    for m in re.finditer(r'num == (\d+)\)\s*\{(.*?)\}',b,re.S):
        n=int(m.group(1))
        vals={}
        order=[]
        for a in re.finditer(arr+r'\s*\(\s*(\d+)\s*\)\s*=\s*(.*?);',m.group(2),re.S):
            vals[int(a.group(1))]=lean(a.group(2)); order.append(int(a.group(1)))
        assert order==list(range(len(order))),(fn,n,order)
        assert len(order)==n,(fn,n,len(order))
        tabs[n]=[vals[q] for q in range(n)]
    q={n:v for n,v in tabs.items() if not any('√' in x for x in v)}
    r={n:v for n,v in tabs.items() if any('√' in x for x in v)}
    out.append('/-- Rational entries of `%s`, elements/elements.cpp:%d-%d. -/\ndef %sQ : ℕ → List ℚ\n'%(fn,l0,l1,nm)+''.join('  | %d => [%s]\n'%(n,',\n      '.join(v)) for n,v in sorted(q.items()))+'  | _ => []\n')
    out.append('/-- The entries written by `%s(a, num)`, elements/elements.cpp:%d-%d, in order of the index. -/\nnoncomputable def %s : ℕ → List ℝ\n'%(fn,l0,l1,nm)+''.join('  | %d => [%s]\n'%(n,', '.join(v)) for n,v in sorted(r.items()))+'  | n => (%sQ n).map (fun q : ℚ => (q : ℝ))\n'%nm)
out.append('''/-- Sequential assignments `a(0) = ..., a(1) = ..., ...`. -/
noncomputable def assign (l : List ℝ) (a : Arr ℝ) : Option (Arr ℝ) := loopM l.length (fun i a => a.set i (l.getD i 0)) a

/-- `lobatto_nodes_1D(a, num)` (also `lobatto_nodes_1D_tmp`, swage/swage.cpp:63-327): for a `num` without
table nothing is written. -/
noncomputable def lobatto_nodes_1D (num : ℕ) (a : Arr ℝ) : Option (Arr ℝ) := assign (lobNodes num) a
/-- `lobatto_weights_1D(a, num)`. -/
noncomputable def lobatto_weights_1D (num : ℕ) (a : Arr ℝ) : Option (Arr ℝ) := assign (lobWeights num) a
/-- `legendre_nodes_1D(a, num)`. -/
noncomputable def legendre_nodes_1D (num : ℕ) (a : Arr ℝ) : Option (Arr ℝ) := assign (legNodes num) a
/-- `legendre_weights_1D(a, num)`. -/
noncomputable def legendre_weights_1D (num : ℕ) (a : Arr ℝ) : Option (Arr ℝ) := assign (legWeights num) a

end Verif.Quad
''')
open(os.path.join(os.path.dirname(os.path.abspath(__file__)),'../lean/Verif/Quad/Tables.lean'),'w').write('\n'.join(out))
