#!/usr/bin/env python3
"""Generates lean/Verif/Fp/ShapeModel.lean (the routines of Shape/Model.lean with a rounding after each operation) and
lean/Verif/Fp/ShapeExpr.lean (the same expressions as syntax trees) from lean/Verif/Shape/Model.lean."""
import re, ast
from fractions import Fraction as F
s = open('/verif/lean/Verif/Shape/Model.lean').read()
consts = []  # (lean text, value)
def cidx(txt, val):
    if (txt, val) not in consts: consts.append((txt, val))
    return consts.index((txt, val))
def conv(t):
    """python ast -> tree: ('x',i) ('r',i) ('c',idx) ('neg',a) (op,a,b)"""
    def const(n):
        if isinstance(n, ast.Constant): return str(n.value), F(n.value)
        if isinstance(n, ast.UnaryOp) and isinstance(n.op, ast.USub):
            c = const(n.operand); return c and ("-" + c[0], -c[1])
        if isinstance(n, ast.BinOp) and isinstance(n.op, ast.Div):
            a, b = const(n.left), const(n.right); assert a and b
            return a[0] + "/" + b[0], a[1] / b[1]
        return None
    c = const(t)
    if c:
        d = c[1].denominator; assert d & (d - 1) == 0, c
        return ('c', cidx(*c))
    if isinstance(t, ast.Name): return (t.id[0].lower(), int(t.id[1]))
    if isinstance(t, ast.UnaryOp): assert isinstance(t.op, ast.USub); return ('neg', conv(t.operand))
    op = {ast.Add: '+', ast.Sub: '-', ast.Mult: '*'}[type(t.op)]
    return (op, conv(t.left), conv(t.right))
def fl(e):
    k = e[0]
    if k == 'x': return "x %d" % e[1]
    if k == 'r': return "r v %d" % e[1]
    if k == 'c':
        t = consts[e[1]][0]; return t if re.fullmatch(r"\d+", t) else "(%s)" % t
    if k == 'neg': return "-(%s)" % fl(e[1])
    def arg(a): return fl(a)
    return "R.fl (%s %s %s)" % (arg(e[1]), k, arg(e[2]))
def ex(e):
    k = e[0]
    if k == 'x': return "(X %d)" % e[1]
    if k == 'r': return "(V %d)" % e[1]
    if k == 'c': return "(C %d)" % e[1]
    if k == 'neg': return "(neg %s)" % ex(e[1])
    return "(%s %s %s)" % ({'+': 'add', '-': 'sub', '*': 'mul'}[k], ex(e[1]), ex(e[2]))
def parse(txt):
    t = " ".join(txt.split())
    t = re.sub(r"\brv v (\d)", r"R\1", t); t = re.sub(r"\bx (\d)", r"X\1", t)
    return conv(ast.parse(t.strip(), mode='eval').body)
M = []; E = []
out = {}
NV = {}
for n, body in re.findall(r"namespace (\w+)\n(.*?)\nend \1", s, re.S):
    nv = int(re.search(r"numVerts : ℕ := (\d+)", body).group(1)); NV[n] = nv
    M.append("\n/-! ## %s -/\nnamespace %s\nopen Shape.%s (rv numVerts numDim)\n" % (n, n, n))
    E.append("\nnamespace %s\n" % n)
    for doc, d, rest in re.findall(r"/-- ([^/]*?|(?:(?!-/).)*?) -/\ndef (basis|partial\w+|physicalPosition)(.*?)\n\n", body + "\n\n", re.S):
        ph = re.findall(r"fillFrom (\S+|\([^)]*\)) (\S+|\([^)]*\)) (\d+) \(fun v =>\n(.*?)\) b\n", rest, re.S)
        cite = re.search(r"elements/elements\.cpp:[\d\- ,]+", doc).group(0).strip(" ,")
        name = {"physicalPosition": "posBasis"}.get(d, d)
        M.append("/-- %s, rounded, %s. -/" % ("The shape functions computed by `%s::physical_position`" % n if d == "physicalPosition" else "`%s::%s`" % (n, re.sub(r"partial(\w)(\w*)", lambda m: "partial_" + m.group(1).lower() + m.group(2) + "_basis", d)), cite))
        M.append("noncomputable def %s (x b : ℕ → ℝ) : ℕ → ℝ :=\n  let r := table R rv" % name)
        tab = [None] * nv
        for a, b, st, e in ph:
            tr = parse(e)
            M.append("  let b := Shape.fillFrom %s %s %s (fun v => %s) b" % (a, b, st, fl(tr)))
            ev = lambda q: eval(q.replace("numVerts", str(nv)))
            for v in range(ev(a), ev(b), int(st)): tab[v] = tr
        M.append("  b\n")
        assert all(tab), (n, d, tab)
        E.append("/-- The trees of `%s`, vertex by vertex. -/\ndef %sE : ℕ → Expr := fun v => [%s].getD v (X 0)" % (name, name, ",\n  ".join(ex(t) for t in tab)))
        E.append("theorem %s_expr (R : Rounding) (x b : ℕ → ℝ) (v : ℕ) (hv : v < %d) :\n    %s R x b v = (%sE v).evalFl R (vars x fun d => table R Shape.%s.rv v d) := by\n  interval_cases v <;> rfl" % (name, nv, name, name, n))
        if name == "posBasis":
            E.append("theorem posBasis_eval (x : ℕ → ℝ) (v : ℕ) (hv : v < %d) (b : ℕ → ℝ) :\n    Shape.%s.basis x b v = (posBasisE v).eval (vars x fun d => Shape.%s.rv v d) := by\n  interval_cases v <;> rfl\n" % (nv, n, n))
        else:
            E.append("theorem %s_eval (x b : ℕ → ℝ) (v : ℕ) (hv : v < %d) :\n    Shape.%s.%s x b v = (%sE v).eval (vars x fun d => Shape.%s.rv v d) := by\n  interval_cases v <;> rfl\n" % (name, nv, n, name, name, n))
    # physical_position
    pb = re.search(r"def physicalPosition.*?\n  (accumulate\w*) (.*?) V b x0", body, re.S)
    cite = re.search(r"`%s::physical_position`, (elements/elements\.cpp:[\d-]+)" % n, body)
    M.append("/-- `%s::physical_position`, rounded%s. -/" % (n, ", " + cite.group(1) if cite else ""))
    M.append("noncomputable def physicalPosition (x : ℕ → ℝ) (V : ℕ → ℕ → ℝ) (b x0 : ℕ → ℝ) : Option (ℕ → ℝ) :=\n  %sR R %s V (posBasis R x b) x0\n" % (pb.group(1), pb.group(2)))
    M.append("end %s" % n); E.append("end %s" % n)
head = '''import Verif.Fp.Arith
import Verif.Shape.Model

/-!
# The fixed-order elements in rounded arithmetic

Generated by `tools/gen_fpshape.py` from `Shape/Model.lean`: the same routines of elements/elements.cpp with a rounding after
every addition, subtraction and multiplication, in the order of the source.  The factors (`1.0/4.0`, `9.0/32.0`, ...) are
dyadic, so their division is exact; the tables of reference vertices contain `1./3.`, which is rounded (`table`).
-/

namespace Verif.Fp.Elem
open Verif (Rounding)
variable (R : Rounding)

/-- Entry `(v, d)` of a table of reference vertices as stored: the quotient is rounded. -/
noncomputable def table (rv : ℕ → ℕ → ℝ) (v d : ℕ) : ℝ := R.fl (rv v d)

/-- The accumulation at the end of every `physical_position` (e.g. elements/elements.cpp:3346-3353), rounded. -/
noncomputable def accumulateR (dim nv trips : ℕ) (V : ℕ → ℕ → ℝ) (basis x0 : ℕ → ℝ) : Option (ℕ → ℝ) :=
  loop trips (fun v s => s.bind fun p =>
      if v < nv then some (loop dim (fun d p => store p d (R.fl (p d + R.fl (V v d * basis v)))) p) else none)
    (some (loop dim (fun d p => store p d 0) x0))

/-- The variant of `Hex20::physical_position`, elements/elements.cpp:4638-4645, rounded. -/
noncomputable def accumulateDimOuterR (dim nv trips : ℕ) (V : ℕ → ℕ → ℝ) (basis x0 : ℕ → ℝ) : Option (ℕ → ℝ) :=
  loop dim (fun d s => loop trips (fun v s => s.bind fun p =>
      if v < nv then some (store p d (R.fl (p d + R.fl (V v d * basis v)))) else none) s)
    (some (loop dim (fun d p => store p d 0) x0))
'''.replace("open Verif (Rounding)\n", "")
open('/verif/lean/Verif/Fp/ShapeModel.lean', 'w').write(head + "\n".join(M) + "\n\nend Verif.Fp.Elem\n")
ehead = '''import Verif.Fp.ShapeModel
import Verif.Fp.Expr
import Verif.Shape.Entries
import Mathlib.Tactic.IntervalCases

/-!
# The shape functions as syntax trees

Generated by `tools/gen_fpshape.py`.  Array 0 is the point, array 1 the row of the vertex table, array 2 the constants.
-/

namespace Verif.Fp.Elem
open Expr

/-- The constants. -/
noncomputable def cst : ℕ → ℝ
%s  | _ => 0
/-- The constants as rational numbers. -/
def cstQ : ℕ → ℚ
%s  | _ => 0
theorem cst_eq (i : ℕ) : cst i = (cstQ i : ℝ) := by
  unfold cst cstQ; split <;> norm_num

/-- The variables. -/
noncomputable def vars (x r : ℕ → ℝ) (a i : ℕ) : ℝ := match a with
  | 0 => x i
  | 1 => r i
  | _ => cst i

/-- Coordinate of the point. -/
abbrev X (i : ℕ) : Expr := var 0 i
/-- Coordinate of the reference vertex. -/
abbrev V (i : ℕ) : Expr := var 1 i
/-- Constant. -/
abbrev C (i : ℕ) : Expr := var 2 i
'''
body = "\n".join(E)
h = ehead % ("".join("  | %d => %s\n" % (i, c[0]) for i, c in enumerate(consts)), "".join("  | %d => %s\n" % (i, c[0]) for i, c in enumerate(consts)))
open('/verif/lean/Verif/Fp/ShapeExpr.lean', 'w').write(h + body + "\n\nend Verif.Fp.Elem\n")
print(consts)
