#!/usr/bin/env python3
"""Generates lean/Verif/Ieee/ShapeModel.lean: the routines of Shape/Model.lean in arithmetic with overflow and underflow (`FNum`), and the
theorems that they compute the trees of Fp/ShapeExpr.lean."""
import re, ast, runpy
import io, contextlib
src = open('/verif/tools/gen_fpshape.py').read()
src = re.sub(r"open\('/verif/lean/Verif/Fp/[^\n]*\n", "\n", src)
ns = {}
with contextlib.redirect_stdout(io.StringIO()): exec(src, ns)
consts, parse, s = ns["consts"], ns["parse"], ns["s"]
def fx(e):
    k = e[0]
    if k == 'x': return "X %d" % e[1]
    if k == 'r': return "r v %d" % e[1]
    if k == 'c': return "cn (%s)" % consts[e[1]][0] if not re.fullmatch(r"\d+", consts[e[1]][0]) else "cn %s" % consts[e[1]][0]
    if k == 'neg': return "-(%s)" % fx(e[1])
    return "(%s %s %s)" % (fx(e[1]), k, fx(e[2]))
M = []; E = []
for n, body in re.findall(r"namespace (\w+)\n(.*?)\nend \1", s, re.S):
    nv = int(re.search(r"numVerts : ℕ := (\d+)", body).group(1))
    M.append("\n/-! ## %s -/\nnamespace %s\nopen Shape.%s (rv numVerts numDim)\n" % (n, n, n))
    for doc, d, rest in re.findall(r"/-- ([^/]*?|(?:(?!-/).)*?) -/\ndef (basis|partial\w+|physicalPosition)(.*?)\n\n", body + "\n\n", re.S):
        ph = re.findall(r"fillFrom (\S+|\([^)]*\)) (\S+|\([^)]*\)) (\d+) \(fun v =>\n(.*?)\) b\n", rest, re.S)
        cite = re.search(r"elements/elements\.cpp:[\d\- ,]+", doc).group(0).strip(" ,")
        name = {"physicalPosition": "posBasis"}.get(d, d)
        M.append("/-- %s, %s. -/" % ("The shape functions computed by `%s::physical_position`" % n if d == "physicalPosition" else "`%s::%s`" % (n, re.sub(r"partial(\w)(\w*)", lambda m: "partial_" + m.group(1).lower() + m.group(2) + "_basis", d)), cite))
        M.append("noncomputable def %s (x : ℕ → ℝ) (b : ℕ → FNum A) : ℕ → FNum A :=\n  let r := table A rv\n  let X : ℕ → FNum A := fun i => cn (x i)" % name)
        for a, b, st, e in ph:
            M.append("  let b := Shape.fillFrom %s %s %s (fun v => %s) b" % (a, b, st, fx(parse(e))))
        M.append("  b\n")
        M.append("theorem %s_expr (x : ℕ → ℝ) (b : ℕ → FNum A) (v : ℕ) (hv : v < %d) :\n    %s A x b v = (Elem.%s.%sE v).evalI A (vars x fun d => A.fl (rv v d)) := by\n  interval_cases v <;> rfl\n" % (name, nv, name, n, name))
    pb = re.search(r"def physicalPosition.*?\n  (accumulate\w*) (.*?) V b x0", body, re.S)
    cite = re.search(r"`%s::physical_position`, (elements/elements\.cpp:[\d-]+)" % n, body)
    M.append("/-- `%s::physical_position`%s. -/" % (n, ", " + cite.group(1) if cite else ""))
    M.append("noncomputable def physicalPosition (x : ℕ → ℝ) (V : ℕ → ℕ → ℝ) (b x0 : ℕ → FNum A) : Option (ℕ → FNum A) :=\n  %sI A %s V (posBasis A x b) x0\n" % (pb.group(1), pb.group(2)))
    M.append("end %s" % n)
head = '''import Verif.Ieee.Expr
import Verif.Fp.ShapeExpr

/-!
# The fixed-order elements in floating-point arithmetic with overflow and underflow

Generated by `tools/gen_ieeeshape.py` from `Shape/Model.lean`: the same routines of elements/elements.cpp on `FNum` (a finite number,
or `none` for an infinity or a NaN), in the order of the source, and for each of them the theorem that it computes the trees of
`Fp/ShapeExpr.lean`.  The factors (`1.0/4.0`, `9.0/32.0`, ...) are dyadic, so their division is exact; the tables of reference
vertices contain `1./3.`, which is rounded.  The coordinates of the point and of the vertices are finite.
-/

namespace Verif.Fp.ElemI
open Verif.Fp.Elem (vars)
variable (A : Ieee)

/-- A constant. -/
def cn {A : Ieee} (x : ℝ) : FNum A := FNum.fin x

/-- Entry `(v, d)` of a table of reference vertices as stored: the quotient is rounded; it is at most 1 in modulus. -/
noncomputable def table (rv : ℕ → ℕ → ℝ) (v d : ℕ) : FNum A := FNum.fin (A.fl (rv v d))

/-- The accumulation at the end of every `physical_position` (e.g. elements/elements.cpp:3346-3353). -/
noncomputable def accumulateI (dim nv trips : ℕ) (V : ℕ → ℕ → ℝ) (basis x0 : ℕ → FNum A) : Option (ℕ → FNum A) :=
  loop trips (fun v s => s.bind fun p =>
      if v < nv then some (loop dim (fun d p => store p d (p d + cn (V v d) * basis v)) p) else none)
    (some (loop dim (fun d p => store p d (cn 0)) x0))

/-- The variant of `Hex20::physical_position`, elements/elements.cpp:4638-4645. -/
noncomputable def accumulateDimOuterI (dim nv trips : ℕ) (V : ℕ → ℕ → ℝ) (basis x0 : ℕ → FNum A) : Option (ℕ → FNum A) :=
  loop dim (fun d s => loop trips (fun v s => s.bind fun p =>
      if v < nv then some (store p d (p d + cn (V v d) * basis v)) else none) s)
    (some (loop dim (fun d p => store p d (cn 0)) x0))
'''
open('/verif/lean/Verif/Ieee/ShapeModel.lean', 'w').write(head + "\n".join(M) + "\n\nend Verif.Fp.ElemI\n")
