#!/usr/bin/env python3
"""Transcribes the fixed-order element classes of /repo/elements/elements.cpp into
lean/Verif/Shape/Model.lean.  Purely textual: loops keep their start, bound and step, and
expressions are copied with `xi_point(k)` -> `x k`, `ref_verts(v, k)` -> `rv v k`, `1.0` -> `1`."""
import re, os
SRC = "/repo/elements/elements.cpp"
L = open(SRC).read().split("\n")
def find(pat, start=0):
    for i in range(start, len(L)):
        if re.search(pat, L[i]): return i
    raise Exception(pat)
def body(start):
    """lines [start, end] of the brace block that starts at or after `start`"""
    depth = 0; seen = False
    for i in range(start, len(L)):
        l = re.sub(r"//.*", "", L[i])
        for ch in l:
            if ch == "{": depth += 1; seen = True
            if ch == "}": depth -= 1
        if seen and depth == 0: return i
def num(s): return re.sub(r"(\d+)\.0?(?![0-9])", r"\1", s)
def expr(s):
    s = re.sub(r"xi_point\((\d)\)", r"x \1", s)
    s = re.sub(r"ref_verts\(\w+, (\d)\)", r"rv v \1", s)
    s = num(s)
    return re.sub(r"\s+", " ", s).strip()
def loops(name, fn, arr):
    a = find(r"%s::%s\s*\(" % (name, fn)); b = body(a)
    txt = "\n".join(re.sub(r"//.*", "", l) for l in L[a:b+1])
    out = []
    for m in re.finditer(r"for\s*\(\s*int\s+(\w+)\s*=\s*(\d+)\s*;\s*\w+\s*(<=?)\s*(\w+)\s*;\s*\w+\s*(\+\+|\+= ?(\d+))\s*\)\s*\{\s*%s\(\w+\)\s*=\s*(.*?);" % arr, txt, re.S):
        st, op, bd, inc, step, e = m.group(2), m.group(3), m.group(4), m.group(5), m.group(6), m.group(7)
        bd = "numVerts" if bd.startswith("num_verts") else bd
        out.append((st, bd + (" + 1" if op == "<=" else ""), step or "1", expr(e)))
    return a + 1, b + 1, out
def wrap(s, ind):
    res = []; cur = ""
    for w in s.split(" "):
        if len(cur) + len(w) + 1 + ind > 96: res.append(cur); cur = w
        else: cur = (cur + " " + w).strip()
    res.append(cur)
    return ("\n" + " " * ind).join(res)
EN = ["""import Verif.Shape.Attr
import Verif.Shape.Model

/-!
Entry lemmas of the fixed-order element model (generated by `tools/gen_shape.py`): every entry of the
tables and of the arrays filled by the routines, by computation.
-/

set_option maxRecDepth 4000

namespace Verif.Shape

variable {K : Type*} [Field K]
"""]
o = ["""import Verif.Loop
import Mathlib.Algebra.Field.Basic

/-!
# Model of the fixed-order elements of `elements/elements.cpp`

Generated by `tools/gen_shape.py`, which copies loop bounds, tables and expressions from the C++ text.
`real_t` is an arbitrary field `K`.  Arrays are functions of their indices; `b` (or `s`, `x0`) is the
previous content of the array that the routine fills.
-/

namespace Verif.Shape

variable {K : Type*} [Field K]

/-- `for (int v = start; v < stop; v += step) a(v) = f(v);` -/
def fillFrom (start stop step : ℕ) (f : ℕ → K) (a : ℕ → K) : ℕ → K :=
  loop ((stop - start + (step - 1)) / step) (fun t a => store a (start + step * t) (f (start + step * t))) a

/-- Entry `(v, d)` of a table stored row by row with `dim` columns (`ViewCArray(ref_vert, nv, dim)`). -/
def tableAt (dim : ℕ) (l : List K) (v d : ℕ) : K := l.getD (v * dim + d) 0

/-- The accumulation at the end of every `physical_position` (e.g. elements/elements.cpp:3346-3353):
`x_point(d) = 0` for all `d`, then for `v = 0 .. trips-1`: `x_point(d) += vertices(v,d) * basis(v)`.
`basis` (a stack array) and `vertices` have `nv` rows, so an iteration with `v >= nv` is undefined
behaviour, modelled as `none`. -/
def accumulate (dim nv trips : ℕ) (V : ℕ → ℕ → K) (basis x0 : ℕ → K) : Option (ℕ → K) :=
  loop trips (fun v s => s.bind fun p =>
      if v < nv then some (loop dim (fun d p => store p d (p d + V v d * basis v)) p) else none)
    (some (loop dim (fun d p => store p d 0) x0))

/-- The variant of `Hex20::physical_position`, elements/elements.cpp:4638-4645, with the dimension as
the outer loop. -/
def accumulateDimOuter (dim nv trips : ℕ) (V : ℕ → ℕ → K) (basis x0 : ℕ → K) : Option (ℕ → K) :=
  loop dim (fun d s => loop trips (fun v s => s.bind fun p =>
      if v < nv then some (store p d (p d + V v d * basis v)) else none) s)
    (some (loop dim (fun d p => store p d 0) x0))
"""]
for name, dim in [("Quad4",2),("Quad8",2),("Quad12",2),("Hex8",3),("Hex20",3),("Hex32",3),("Tess16",4)]:
    o.append("\n/-! ## %s -/\nnamespace %s\n" % (name, name))
    a = find(r"%s::ref_vert\[" % name); b = find(r"^\s*\};", a)
    vals = [num(re.sub(r"\s","",t)).replace("+","") for l in L[a+1:b] for t in re.sub(r"//.*","",l).replace("{","").split(",") if t.strip()]
    nv = int(re.findall(r"\d+", name)[0])
    assert len(vals) == nv*dim, (name, len(vals))
    o.append("/-- `num_verts_`, elements/elements.h. -/\nabbrev numVerts : ℕ := %d\n/-- `num_dim_`, elements/elements.h. -/\nabbrev numDim : ℕ := %d\n" % (nv, dim))
    rows = ",\n    ".join(", ".join(vals[i*dim:(i+1)*dim]) for i in range(nv))
    o.append("/-- `ref_vert`, elements/elements.cpp:%d-%d. -/\ndef rv (v d : ℕ) : K :=\n  tableAt numDim [\n    %s] v d\n" % (a+1, b+1, rows))
    RV = {(v, d): vals[v*dim+d] for v in range(nv) for d in range(dim)}
    pv = lambda t: "(%s)" % t if ("-" in t or "/" in t) else t
    EN.append("namespace %s" % name)
    for (v, d), t in RV.items(): EN.append("@[shape_entry] theorem rv_%d_%d : rv %d %d = (%s : K) := rfl" % (v, d, v, d, t))
    if name != "Tess16":
        a = find(r"%s::vert_to_node\[" % name); b = find(r"^\s*\};", a)
        vs = re.findall(r"\d+", " ".join(L[a+1:b])); assert len(vs) == nv
        o.append("/-- `vert_to_node` as returned by `vert_node_map`, elements/elements.cpp:%d-%d. -/\ndef vertToNode (v : ℕ) : ℕ :=\n  [%s].getD v 0\n" % (a+1, b+1, wrap(", ".join(vs), 3)))
        a = find(r"^%s::%s\(\)" % (name, name)); b = body(a)
        txt = "\n".join(L[a:b])
        ns = int(re.search(r"nsurfaces = (\d+)", txt).group(1)); st = int(re.search(r"strides\(istride\) = (\d+)", txt).group(1))
        o.append("/-- Number of surfaces, elements/elements.cpp:%d-%d. -/\nabbrev numSurf : ℕ := %d\n/-- Row length of `surface_to_dof_lid`. -/\nabbrev surfSize : ℕ := %d\n" % (a+1, b+1, ns, st))
        asg = re.findall(r"surface_to_dof_lid\((\d+),(\d+)\) = (\d+);", txt)
        o.append("/-- The assignments to `surface_to_dof_lid` in the constructor, in program order,\nelements/elements.cpp:%d-%d; `s` is the content of the freshly allocated array. -/\ndef surfaceToDof (s : ℕ → ℕ → ℕ) : ℕ → ℕ → ℕ :=\n  [%s].foldl\n    (fun s t => store2 s t.1 t.2.1 t.2.2) s\n" % (a+1, b+1, wrap(", ".join("(%s, %s, %s)" % t for t in asg), 3)))
    fns = [("basis","basis","basis"),("partial_xi_basis","partial_xi","partialXi"),("partial_eta_basis","partial_eta","partialEta")]
    if dim >= 3: fns.append(("partial_mu_basis","partial_mu","partialMu"))
    if dim >= 4: fns.append(("partial_tau_basis","partial_tau","partialTau"))
    for fn, arr, ln in fns:
        a, b, lp = loops(name, fn, arr)
        assert len(lp) == {"Quad4":1,"Quad8":3,"Quad12":3,"Hex8":1,"Hex20":4,"Hex32":4,"Tess16":1}[name], (name, fn, lp)
        o.append("/-- `%s::%s`, elements/elements.cpp:%d-%d. -/\ndef %s (x : ℕ → K) (b : ℕ → K) : ℕ → K :=" % (name, fn, a, b, ln))
        for st, bd, step, e in lp:
            bdp = "(%s)" % bd if " " in bd else bd
            o.append("  let b := fillFrom %s %s %s (fun v =>\n    %s) b" % (st, bdp, step, wrap(e, 4)))
            for v in range(int(st), eval(bd.replace("numVerts", str(nv))), int(step)):
                ev = re.sub(r"rv v (\d)", lambda m: pv(RV[(v, int(m.group(1)))]), e)
                EN.append("@[shape_entry] theorem %s_%d (x b : ℕ → K) : %s x b %d =\n    %s := rfl" % (ln, v, ln, v, wrap(ev, 4)))
        o.append("  b\n")
    a, b, lp = loops(name, "physical_position", "basis")
    txt = "\n".join(re.sub(r"//.*", "", l) for l in L[a-1:b])
    ms = re.findall(r"for\s*\(\s*int\s+(\w+)\s*=\s*0\s*;\s*\w+\s*(<=?)\s*(\w+)\s*;\s*\w+\s*\+\+\s*\)\s*\{\s*for\s*\(\s*int\s+(\w+)\s*=\s*0\s*;\s*\w+\s*(<=?)\s*(\w+)\s*;", txt, re.S)
    assert len(ms) == 1, (name, ms)
    m = ms[0]
    g = lambda v, op: {"num_verts_":"numVerts","num_verts":"numVerts","num_dim_":"numDim"}.get(v, v) + (" + 1" if op == "<=" else "")
    par = lambda s: "(%s)" % s if " " in s else s
    if m[0] == "dim": acc, dd, tt = "accumulateDimOuter", g(m[2],m[1]), g(m[5],m[4])
    else: acc, dd, tt = "accumulate", g(m[5],m[4]), g(m[2],m[1])
    o.append("/-- `%s::physical_position`, elements/elements.cpp:%d-%d; `b` is the uninitialised local array,\n`x0` the previous content of `x_point`, `V` the `num_verts_` rows of `vertices`. -/\ndef physicalPosition (x : ℕ → K) (V : ℕ → ℕ → K) (b x0 : ℕ → K) : Option (ℕ → K) :=" % (name, a, b))
    for st, bd, step, e in lp:
        bdp = "(%s)" % bd if " " in bd else bd
        o.append("  let b := fillFrom %s %s %s (fun v =>\n    %s) b" % (st, bdp, step, wrap(e, 4)))
    o.append("  %s %s numVerts %s V b x0\n" % (acc, par(dd), par(tt)))
    o.append("end %s\n" % name)
    EN.append("end %s\n" % name)
o.append("end Verif.Shape")
open(os.path.join(os.path.dirname(os.path.abspath(__file__)), "../lean/Verif/Shape/Model.lean"), "w").write("\n".join(o) + "\n")
EN.append("end Verif.Shape")
open(os.path.join(os.path.dirname(os.path.abspath(__file__)), "../lean/Verif/Shape/Entries.lean"), "w").write("\n".join(EN) + "\n")
